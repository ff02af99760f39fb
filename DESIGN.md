# Formal model of forcepho

`/repo` is forcepho, a Python/C++/CUDA package that fits scenes of galaxies to
many images at once.  This directory holds a Lean 4 model of its logic and
proofs about that model.  Nothing in `/repo` was run: the model was written by
reading the sources.

* `properties.jsonl` — the properties, in terms of the API.
* `MANIFEST.json` — for each property its status and the theorems.
* `lean/` — the Lake project; `lake build` in it checks everything.
* `seeded/LOG.jsonl` — edits of the model used to test the theorems.

## Trusted base

* Lean 4.33.0's kernel (and the elaborator, for the meaning of statements).
* Axioms: at most `propext`, `Classical.choice`, `Quot.sound`; the list per
  theorem is at the end.  No axiom of our own, no `sorry`, no `native_decide`,
  no `bv_decide`.
* Mathlib (compiled from `/app/mathlib4-4.33.0`).
* The reading of the sources: each definition cites the file and lines it
  models and states its simplifications.  Nothing checks the model against a
  running program.
* Behaviour of libraries the code calls (numpy indexing and broadcasting,
  h5py, astropy, mpi4py, scipy), as described in the comments of the
  definitions that use them.

Global simplifications (each model file repeats the ones it uses):

* Floating point is exact arithmetic: `ℝ` for calculus, a linearly ordered
  field, `ℚ` or `Int` for bookkeeping.  Rounding, overflow and NaN are outside
  the model, except in `Float` (C130, C131, C135, C138, C140, C141, C145, C146, C154:
  rounding to nearest even, and for C154 infinities and NaN) and where a NaN or
  non-finite value is itself the subject (masking, flux bounds, the largest
  sample, the mixture fit): there an explicit value carries it.
* Integers are unbounded, except the int16 pixel coordinates of C38.
* A failing call is a value (`Option`, `Except` or an error type), so that what
  an exception leaves behind can be stated.
* Not modelled: byte formats of FITS, HDF5 and JSON; MPI transport beyond
  in-order delivery and arbitrary arrival; the k-d tree (assumed to return
  exactly the points within the radius); spherical geometry of astropy except
  in C57 and C74; the samplers and optimisers (arbitrary results); drawing;
  the CUDA memory model beyond atomic additions in any order.

## Naming

* A theorem `Cnn_…` belongs to property Cnn.
* `…_partial`: the property holds under the hypotheses shown, which are stronger
  than its statement; the note says what is missing.
* `…_refuted`: the code violates the property; the theorem gives the violation,
  in general where possible and otherwise by a concrete case.  A property with a
  refuted part has status `partial`; where a property is `proved`, a refutation
  shows that a hypothesis in its statement is needed or concerns a neighbouring
  function.
* Beside each group of theorems an `example` shows a non-trivial case that meets
  the hypotheses.

## What is modelled

| code | Lean |
|------|------|
| `superscene.py` (scene, linked scene, bounds, catalogs, state on disk) | `SuperScene`, `Weights`, `Linked`, `Bounds` |
| `dispatcher.py` | `Dispatcher` |
| `sources.py`, `proposal.py` | `Sources`, `Shear`, `Shapes`, `Profile` |
| `model.py`, `priors.py` | `Posterior`, `Transform`, `Priors`, `Fit` |
| `fitting.py`, `tasks.py` (including `run_pymc3`) | `Fitting`, `Fluxes`, `Chain` |
| `patches/` and `patches/storage.py` | `Patch`, `Storage`, `Device`, `Region`, `Wcs` |
| `src/compute_gaussians_kernel.cc`, `.cu` and headers | `Kernel`; bytes and limits: `Layout`, `Limits`; single precision: `Float` |
| `region.py`, `utils/wcs.py` | `Region`, `Wcs` |
| `config.py`, saving the configuration, logging | `Config` |
| `postprocess.py`, `utils/` | `Postprocess`, `Quantile`, `Catalog`, `Chain`, `Profile`, `Shapes` |
| `utils/corner.py` | `Quantile`, `Contour`, `Corner` |
| `slow/` | `Slow` |
| `mixtures/`, `demo/demo_psf/make_jwst_psf/make_psf.py` | `Em`, `Psfdata`, `Profile` |
| `demo/` | `Demo` |
| `docs/` (three recipes) | `Docs` |
| `tests/verification` | `Verification` |
| `tests/galsim_tests` | `Galsim` |
| imports and top levels of all modules and scripts, global names in functions | `Imports` |

Not modelled: the drawing of figures (which data, labels and outlines go where is modelled; ticks, styles and colours are
not), the samplers and optimisers themselves, table printing, most parser definitions, the rest of `tests/`, `setup.py`
beyond the version, the build of the extensions.

## Per property

Status, the Lean files with the theorems, how it is proved, and what is missing.
The files next to them in the same directory hold the model (`Model.lean` unless
the file itself carries it).

* **C01** (proved) Active and fixed counts agree with outstanding regions. Files: `SuperScene/Props.lean`. Method: inductive invariant over all histories of checkout, check-in and reset, with a ghost list of outstanding regions.
* **C02** (proved) No source is optimised by two workers at once. Files: `SuperScene/Props.lean`. Method: inductive invariant over all histories of checkout, check-in and reset, with a ghost list of outstanding regions.
* **C03** (partial) A source handed out as a fixed neighbour is unavailable until it is returned. Files: `SuperScene/Props.lean`. Method: negation by a concrete history; the part for active sources from the same invariant. Limits: The claim is false of the code for fixed sources (checkout only tests is_active); negation proved with a concrete history. The part for active sources, and 'invalid implies held', is proved.
* **C04** (proved) A failed checkout leaves no trace. Files: `SuperScene/Props.lean`. Method: case analysis of checkout.
* **C05** (proved) Check-in writes exactly the checked-in rows. Files: `SuperScene/Props.lean`. Method: inductive invariant over all histories of checkout, check-in and reset, with a ghost list of outstanding regions.
* **C06** (proved) Iteration and patch counters are exact history sums. Files: `SuperScene/Props.lean`. Method: inductive invariant over all histories of checkout, check-in and reset, with a ghost list of outstanding regions.
* **C07** (proved) Logs are complete and ordered. Files: `SuperScene/Props.lean`. Method: inductive invariant over all histories of checkout, check-in and reset, with a ghost list of outstanding regions.
* **C08** (proved) Size limits of a checked-out region. Files: `SuperScene/Props.lean`. Method: list lemmas about sorted prefixes of the candidates; the sort is any permutation that sorts.
* **C09** (proved) The region radius encloses every active source and the fixed set is the right one. Files: `SuperScene/Props.lean`. Method: list lemmas about sorted prefixes of the candidates; the sort is any permutation that sorts.
* **C10** (proved) Checkout succeeds exactly when it can. Files: `SuperScene/Props.lean`. Method: list lemmas about sorted prefixes of the candidates; the sort is any permutation that sorts.
* **C11** (proved) The stopping test is sound and stable. Files: `SuperScene/Props.lean`. Method: invariant over histories.
* **C12** (proved) Reset returns the bookkeeping to a fresh scene. Files: `SuperScene/Props.lean`. Method: inductive invariant over all histories of checkout, check-in and reset, with a ghost list of outstanding regions.
* **C13** (partial) Seed weights are a probability distribution that excludes unavailable sources. Files: `Weights/Props.lean`. Method: arithmetic over the reals with numpy's integer `~` spelled out; negation by a concrete catalog. Limits: Normalisation and monotonicity proved; the exclusion of checked-out sources is false of the code (numpy ~ on an int32 column gives -2/-1, not a boolean mask) and the negation is proved.
* **C14** (proved) Friends-of-friends growth returns exactly the connected group. Files: `Linked/Props.lean`. Method: closure invariant of the breadth-first growth, induction on the number of unvisited sources.
* **C15** (partial) Linked regions never share active sources. Files: `Linked/Props.lean`. Method: disjointness under explicit hypotheses; negation by a concrete scene. Limits: False in general: a group larger than the active slots is truncated and two regions can share a source; negation proved. Proved when filling is strict, radii of influence are fixed and at most the boundary radius, and every overlap group fits.
* **C16** (proved) The group catalog partitions the sources. Files: `Linked/Props.lean`. Method: closure invariant of the breadth-first growth, induction on the number of unvisited sources.
* **C17** (proved) Every worker is idle or busy, never both, never lost. Files: `Dispatcher/Queue.lean`. Method: invariant over all operation sequences of the queue with arbitrary arrival sets.
* **C18** (proved) Each submitted task is collected exactly once and attributed to its worker. Files: `Dispatcher/Queue.lean`. Method: invariant over all operation sequences of the queue with arbitrary arrival sets.
* **C19** (proved) Queue operations fail only when they should and without side effects. Files: `Dispatcher/Queue.lean`. Method: invariant over all operation sequences of the queue with arbitrary arrival sets. Limits: Additionally: a non-blocking collect with nothing outstanding raises TypeError (mpi4py answers None).
* **C20** (partial) The parent loop hands back every region it checked out. Files: `Dispatcher/Parent.lean`. Method: invariant of the parent loop over arbitrary schedules; negations by concrete schedules. Limits: Holds in full with one worker. With more workers the code drops stragglers and logs results under the newest task id; both negations proved. Everything else (accounting, no queue failure, progress, clean shutdown) proved for all schedules.
* **C21** (proved) Source parameter vectors round-trip. Files: `Sources/Props.lean`. Method: induction on lists of sources, slices of concatenations. Limits: All classes. Side finding: n_params of the base class is two short of its vector length.
* **C22** (proved) Scene parameter vectors round-trip and touch only their own source. Files: `Sources/Props.lean`. Method: induction on lists of sources, slices of concatenations. Limits: For every scene of concrete source classes; the abstract base class always raises (C22_base_class). A vector longer than needed is accepted and its tail ignored.
* **C23** (partial) Parameter indices point at the right slots. Files: `Sources/Props.lean`. Method: induction on lists of sources, slices of concatenations. Limits: Correct when no fixed source precedes; refuted otherwise. The documented default (all bands) always raises.
* **C24** (partial) Catalog rows round-trip through sources and scenes. Files: `Sources/Catalog.lean`. Method: induction on lists of sources, slices of concatenations. Limits: Band and shape columns and row order round-trip; the id column is replaced by the position (refuted); stars, simple galaxies and fixed-shape shear galaxies cannot be built from a catalog at all.
* **C25** (partial) Kernel proposals carry each active source's parameters in order. Files: `Sources/Catalog.lean`. Method: induction on lists of sources, slices of concatenations. Limits: Everything but the zero fill: unused slots keep uninitialised memory (refuted).
* **C26** (proved) The posterior cache is transparent. Files: `Posterior/Props.lean`. Method: refinement of the cached evaluator to a cache-free one, induction on query sequences; negations by concrete sequences. Limits: The sentinel restriction of the statement is necessary (C26_sentinel: a first query at the all -99 vector raises).
* **C27** (partial) The cache is safe under caller mutation. Files: `Posterior/Props.lean`. Method: refinement of the cached evaluator to a cache-free one, induction on query sequences; negations by concrete sequences. Limits: False of the code: the cache keeps a reference to the caller's array (and hands out its own gradient array); both negations proved. Proved: safe for histories that never write to an array after querying it.
* **C28** (partial) The stacked gradient follows the parameter-vector layout. Files: `Posterior/Props.lean`. Method: list indexing of the stacked gradient; negation by a concrete scene. Limits: Layout proved for all sizes and agreement with the scene vector for galaxies with free profile; for galaxies without free profile the gradient is longer than the parameter vector (refuted).
* **C29** (proved) The bounded transform is a bijection onto the open box. Files: `Transform/Props.lean`. Method: calculus over the reals (`HasDerivAt`), bijection by explicit inverse. Limits: Over the reals; floating-point saturation of the sigmoid is not modelled.
* **C30** (proved) Jacobian and log-determinant gradient are true derivatives. Files: `Transform/Props.lean`. Method: calculus over the reals (`HasDerivAt`), bijection by explicit inverse.
* **C31** (proved) The posterior gradient is the derivative of the posterior. Files: `Transform/Props.lean`. Method: calculus over the reals (`HasDerivAt`), bijection by explicit inverse. Limits: Chain rule through transform, prior and volume term, and the stacking of per-band kernel derivatives; the kernel's own derivatives are C50.
* **C32** (proved) Reflection at the bounds terminates inside the box. Files: `Transform/Props.lean`. Method: the loop with fuel; a decreasing distance shows enough fuel exists, an invariant gives the box. Limits: Also: for a zero-width interval the loop never terminates.
* **C33** (proved) Automatic flux bounds contain the flux. Files: `Bounds/Props.lean`. Method: order arithmetic over the reals; negations by concrete values. Limits: The restriction to non-zero flux is necessary (C33_refuted_zero); if all fluxes are zero the upper bound is NaN.
* **C34** (proved) Bounds catalog: shape, ordering and containment. Files: `Bounds/Props.lean`. Method: order arithmetic over the reals; negations by concrete values. Limits: Also: made bounds pass the check for interior catalogs; a zero flux with zero uncertainty gives an empty interval that the check rejects.
* **C35** (partial) Adjusting bounds keeps fluxes inside the bounds. Files: `Bounds/Props.lean`. Method: order arithmetic over the reals; negations by concrete values. Limits: False of the code: the clip uses the lower bound twice, so every flux ends strictly below its lower bound (C35_refuted). Proved: bounds only widen and contain what they contained.
* **C36** (partial) Position-angle conversion normalises the angle. Files: `Bounds/Props.lean`. Method: order arithmetic over the reals; negations by concrete values. Limits: The multiple-of-pi half holds for all inputs; the range half holds only for inputs already in range (sign error in the test); negation proved.
* **C37** (proved) Catalog rectification puts shapes in range and is idempotent. Files: `Bounds/Props.lean`. Method: order arithmetic over the reals; negations by concrete values. Limits: Position-angle range for the unrotated, unreversed case; with rotation the result is in [-pi/2, pi/2].
* **C38** (proved) Super-pixel storage loses no pixel and mislabels none. Files: `Storage/Props.lean`. Method: index bijection of the reshaped array; int16 wrap-around spelled out. Limits: For sides up to 32768 pixels (coordinates are stored as int16; beyond that refuted).
* **C39** (partial) Masked or non-finite pixels carry zero weight and finite values. Files: `Storage/Ingest.lean`. Method: numpy mask semantics spelled out, pointwise. Limits: Proved for boolean masks and for integer masks with a bit mask; an integer mask without a bit mask is used as row numbers (refuted).
* **C40** (partial) Stores are maps: last write wins, other exposures untouched. Files: `Storage/Files.lean`. Method: store as a state machine, refinement to a finite map, induction on operations. Limits: Metadata: in full. Pixel file: for exposure names none of which is a directory of another; otherwise an exposure can delete another (refuted).
* **C41** (proved) Pixel packing partitions the pixel array by exposure and band. Files: `Patch/Props.lean`. Method: partition of lists by offsets, induction on exposures. Limits: Index arrays as natural numbers (int16/int32 idealised).
* **C42** (proved) Splitting inverts packing. Files: `Patch/Props.lean`, `Patch/Meta.lean`. Method: partition of lists by offsets, induction on exposures.
* **C43** (proved) Padding to the warp size is inert. Files: `Patch/Meta.lean`, `Kernel/Props.lean`. Method: zero weights contribute zero to every sum of the kernel model. Limits: Inertness of the padding for chi-square and every gradient is proved on the kernel model.
* **C44** (partial) Capping signal to noise caps it and never raises a weight. Files: `Patch/Meta.lean`. Method: order arithmetic. Limits: Signal to noise is capped from above; for negative values the absolute value is not capped (refuted).
* **C45** (partial) PSF packing offsets address the right gaussians. Files: `Patch/Meta.lean`. Method: partition of lists by offsets, induction on exposures. Limits: Packing offsets proved. The kernel's index ignores the source, so it is right only when all sources of an exposure share a PSF (which the shipped lookup guarantees); refuted in general. The static PSF array is larger than its contents (refuted).
* **C46** (partial) Zeroing and un-zeroing coordinates round-trips. Files: `Patch/Meta.lean`. Method: partition of lists by offsets, induction on exposures. Limits: Proved for one packing; repacking an already packed scene always loses the reference (refuted).
* **C47** (partial) Subtracting fixed sources leaves data minus all fixed models. Files: `Device/Subtract.lean`, `Device/Cpu.lean`, `Device/History.lean`. Method: device buffers as a ledger; invariant over operation sequences on CPU and GPU. Limits: One preparation of a packed patch: in full, on both devices, for every block size. Preparing the same CPU patch again subtracts again (C47_cpu_twice) while the GPU refuses; an empty fixed catalog raises IndexError (C47_degenerate).
* **C48** (partial) Device memory is neither leaked nor freed twice. Files: `Device/Ledger.lean`, `Device/History.lean`, `Device/Compose.lean`. Method: device buffers as a ledger; invariant over operation sequences on CPU and GPU. Limits: Stated for the free of the GPU mixin, which is the one that runs only when the mixin is written before the storage class; JadesPatch, SimplePatch and the examples write it after, and their free does nothing (C149_free_refuted). Under that restriction: each buffer is released at most once and after free exactly once, counting handle destruction. Explicit frees alone suffice when sends only happen with nothing on the device (C48_explicit_partial), otherwise the destructor is needed (C48_resend_unfreed). No access to released memory while nothing raised; a failed send breaks that (C48_failed_send).
* **C49** (proved) Image gaussians are well formed. Files: `Kernel/Props.lean`, `Kernel/Layout.lean`. Method: algebra of 2 by 2 matrices; `HasDerivAt` of the whole chi-square through every intermediate of the kernel; comparison with an independent gaussian mixture image. Limits: Over the reals. The normalisation is the integral of the gaussian over the image plane; the second-order pixel correction is part of C50_chi2.
* **C50** (proved) Kernel gradients are the derivatives of the kernel chi-square. Files: `Kernel/Deriv.lean`, `Kernel/Props.lean`. Method: algebra of 2 by 2 matrices; `HasDerivAt` of the whole chi-square through every intermediate of the kernel; comparison with an independent gaussian mixture image. Limits: Over the reals. The profile parameters act through the mixture amplitudes, whose supplied derivatives are assumed to be derivatives. C50_chi2 ties the reported chi-square and residual image to an independent gaussian mixture model.
* **C51** (proved) Zero-weight pixels do not influence the likelihood. Files: `Kernel/Props.lean`. Method: sums over pixels.
* **C52** (partial) CPU and GPU kernels accumulate the same sums. Files: `Kernel/Gpu.lean`. Method: the strided loops and the warp reduction of the GPU kernel as lists of additions in any order; comparison with the serial sum. Limits: Visits, reduction and gaussians: for all thread counts. Agreement of the sums needs block and exposures to be multiples of the warp size; otherwise inactive lanes enter the sum (refuted) and some thread indexes past the accumulators.
* **C53** (proved) Response buffers are never overrun within limits. Files: `Kernel/Gpu.lean`. Method: injectivity and range of the flat index. Limits: Also: the shared memory requested at launch holds at most 561 gaussians, so the limit on sources alone does not protect it.
* **C54** (proved) Conformal-shear parametrisation round-trips. Files: `Shear/Props.lean`. Method: trigonometry, logarithms and `HasDerivAt`. Limits: Over the reals. At a round source the jacobian does not exist (C54_round_singular).
* **C55** (proved) Region overlap test is sound, and exact for rectangles. Files: `Region/Props.lean`, `Region/Separate.lean`, `Region/Image.lean`. Method: separating axis theorem for convex polygons in the plane, from the separation theorem of convex sets. Limits: Exact for every pair of convex polygons with non-empty interior (separating axis theorem); for polygons of no area the answer can be wrong (C55_degenerate).
* **C56** (proved) Point-in-polygon test accepts the interior points of convex polygons. Files: `Region/Props.lean`. Method: separating axis theorem for convex polygons in the plane, from the separation theorem of convex sets. Limits: Exact for convex polygons; a flat polygon accepts its whole line (C56_flat).
* **C57** (proved) Local WCS linearisation is exact for affine maps and self-consistent. Files: `Wcs/Props.lean`. Method: field arithmetic and convexity; negations by concrete geometry. Limits: Over the reals, for the astrometric solution as an arbitrary or affine function. The branch that uses the header matrix is the derivative of the tangent projection at the reference point only (C57_tangent_refuted).
* **C58** (proved) Sky/pixel conversions are mutually inverse and match the kernel. Files: `Wcs/Props.lean`. Method: field arithmetic and convexity; negations by concrete geometry. Limits: Stamp conversions: in full. The plotting helper uses the first source's astrometry when the number of positions differs from the number of sources (C58_markers_refuted).
* **C59** (proved) Chain catalogs put every sample in the right cell. Files: `Chain/Props.lean`. Method: index arithmetic on reshaped chains and block matrices. Limits: With one source and one iteration every iteration number is accepted (C59_out_of_range).
* **C60** (proved) Block-diagonal covariance extraction inverts assembly. Files: `Chain/Props.lean`. Method: index arithmetic on reshaped chains and block matrices.
* **C61** (partial) Configuration precedence. Files: `Config/Props.lean`. Method: options as finite maps, one step per rule. Limits: Holds when every option is written `--name values`. An option given as `--name=value` or abbreviated is silently ignored (C61_refuted, in general), and read_config lets parser defaults override the file (C61_read_config). C61_merge says exactly what happens in all cases.
* **C62** (proved) Linear flux optimisation is the weighted least-squares minimum. Files: `Fluxes/Props.lean`. Method: completing the square; linear algebra over the kernel model. Limits: Over the reals, also end to end with the kernel's chi-square (C62_chi2). Passing fixed sources in the documented shape always raises (C62_fixed_refuted).
* **C63** (proved) Prior gradients are derivatives of the priors. Files: `Priors/Props.lean`. Method: `HasDerivAt` of sums. Limits: Over the reals. The Barrier class can never be constructed.
* **C64** (partial) The two slow likelihood plans agree. Files: `Slow/Props.lean`, `Slow/Deriv.lean`. Method: algebra and `HasDerivAt`; the Python plan is proved equal to the kernel model. Limits: Plans agree and the gradient is the derivative without fixed sources. The plain plan ignores fixed sources (C64_refuted); a zero flux or amplitude gives a NaN gradient (C64_nan); a PSF in arcsec raises unless it has exactly two gaussians, and then its offsets are mixed up (C64_arcsec_refuted); plans share a class-level dictionary so one plan's setting leaks into others (C64_history_refuted).
* **C65** (partial) Filling images from residual files writes only stored pixels. Files: `Postprocess/ImageProps.lean`, `Postprocess/WriteImages.lean`. Method: images as functions of pixel indices, induction on stored pixels. Limits: Exactly the stored pixels change when the stored coordinates are pixels of the image. Padding (coordinate -1) overwrites the last pixel (C65_padding, C65_refuted), the shape of one exposure leaks to the next without a header, and calls that leave out the dictionaries share them. Cutouts ignore padding (C65_cutout, in full).
* **C66** (partial) The posterior sample catalog holds each source's latest patch. Files: `Postprocess/CatalogProps.lean`. Method: induction on the patch log; linear algebra for the precisions. Limits: In full for the patches of the run's log. With an explicit list of patches the catalog has one row per patch instead of per source (C66_explicit_refuted).
* **C67** (proved) PSF lookup returns the PSF of the nearest tabulated location. Files: `Storage/Props.lean`. Method: argmin specification. Limits: The patch packer never passes an astrometric solution, so in practice entry 0 is always used (C67_fallback; see C45).
* **C68** (proved) Linked regions respect capacity and cover their sources. Files: `Linked/Props.lean`. Method: closure invariant of the breadth-first growth, induction on the number of unvisited sources.
* **C69** (partial) Switching the volume correction takes effect at once. Files: `Posterior/Props.lean`. Method: refinement of the cached evaluator to a cache-free one, induction on query sequences; negations by concrete sequences. Limits: True at every other point; false at the point queried last (stale value), negation proved.
* **C70** (partial) Ingesting the same image set again stores the same data. Files: `Storage/Ingest.lean`. Method: store as a state machine, refinement to a finite map, induction on operations. Limits: False of the code with a background (subtracted again); true without background and calibration.
* **C71** (partial) Coverage queries use the astrometry of the current header. Files: `Storage/Files.lean`. Method: store as a state machine, refinement to a finite map, induction on operations. Limits: False of the code: the cached solution of the old header stays in use.
* **C72** (proved) An existing pixel store keeps its layout. Files: `Storage/Files.lean`. Method: store as a state machine, refinement to a finite map, induction on operations.
* **C73** (partial) A position search lists exactly the exposures whose image covers the position. Files: `Region/Search.lean`. Method: field arithmetic and convexity; negations by concrete geometry. Limits: Exact for square images with affine solutions; the tested outline has the first axis length as both coordinates of the far corner, so for other shapes it is wrong in both directions (refuted).
* **C74** (partial) The bounding box of a circle contains the circle. Files: `Region/Search.lean`. Method: field arithmetic and convexity; negations by concrete geometry. Limits: Holds on a flat sky. On the sphere the box is too narrow for every circle off the equator (refuted, in general).
* **C75** (partial) A patch finds every exposure that has pixels in its region. Files: `Region/Search.lean`. Method: field arithmetic and convexity; negations by concrete geometry. Limits: Exact characterisation of what is listed; an image inside or crossed by the region is not found although it has pixels in it (refuted).
* **C76** (partial) A patch holds every pixel of its region once. Files: `Region/Search.lean`, `Region/Image.lean`. Method: field arithmetic and convexity; negations by concrete geometry. Limits: No pixel twice, all within one super-pixel diagonal of the region, and all pixels inside it by half a diagonal; a circle between the corners of a super-pixel selects nothing (refuted).
* **C77** (proved) Configuration values are normalised without loss. Files: `Config/Props.lean`. Method: options as finite maps, one step per rule. Limits: A store directory together with a store file left at None raises TypeError (C77_store_none).
* **C78** (proved) The design matrix reproduces the kernel's model. Files: `Fluxes/Props.lean`. Method: completing the square; linear algebra over the kernel model. Limits: Over the reals; a zero flux makes the matrix undefined.
* **C79** (proved) The Python likelihood and the compiled kernel agree. Files: `Slow/Agree.lean`. Method: algebra and `HasDerivAt`; the Python plan is proved equal to the kernel model. Limits: For round source gaussians, a PSF in pixel units, no exponent beyond the kernel's cutoff and non-zero fluxes.
* **C80** (partial) The multi-stamp likelihood gradient lands on the right parameters. Files: `Slow/MultiProps.lean`, `Slow/MultiSlow.lean`. Method: algebra and `HasDerivAt`; the Python plan is proved equal to the kernel model. Limits: Holds for scenes of sources whose parameters are in the kernel's order and none of which is fixed, end to end with the Python plans (C80_slow_partial). The shear class gets derivatives of other parameters; sources outside the stamp coverage get zero; fixed sources shift the indices past the vector.
* **C81** (partial) The simple PSF has the requested width. Files: `Slow/Psf.lean`. Method: algebra and `HasDerivAt`; the Python plan is proved equal to the kernel model. Limits: The variance is the width over 2.355 instead of its square, so the width is right for one value only.
* **C82** (proved) Written data, residual, model and chi images belong together. Files: `Postprocess/WriteImages.lean`. Method: images as functions of pixel indices, induction on stored pixels.
* **C83** (partial) Reported flux uncertainties come from the last fit and cap the signal to noise. Files: `Postprocess/CatalogProps.lean`. Method: induction on the patch log; linear algebra for the precisions. Limits: Over the reals; numpy's pseudo-inverse is assumed to be the inverse on positive definite matrices. The documented default for patches without precision matrices never applies: an exception is raised (C83_missing_refuted).
* **C84** (partial) Chains of sources in several patches are listed under the right patches. Files: `Postprocess/CatalogProps.lean`. Method: induction on the patch log; linear algebra for the precisions. Limits: Right when patch i was logged at position i. Otherwise chains of other patches are returned (C84_refuted).
* **C85** (proved) PSF conversions keep the PSF. Files: `Slow/Psf.lean`. Method: algebra and `HasDerivAt`; the Python plan is proved equal to the kernel model. Limits: Over the reals.
* **C86** (proved) Samples and starting point respect the bounds. Files: `Fitting/Props.lean`. Method: sigmoid transform and order arithmetic. Limits: Over the reals, for bounds with lower below upper (checked by the code path that makes them, C34). Bounds whose lower or upper limits are all zero are rejected by the model constructor (C86_rejected).
* **C87** (partial) The maximum of the posterior returned is the most probable sample. Files: `Fitting/Props.lean`. Method: argmax specification with NaN as an explicit value. Limits: Holds when no log-probability is NaN; a NaN sample is returned first otherwise.
* **C88** (partial) The mass matrix given to the sampler is positive definite. Files: `Fitting/Props.lean`. Method: induction on the repair attempts; quadratic forms. Limits: Holds for positive semidefinite matrices and traces of two or more points. An indefinite matrix is passed on after five attempts, silently (C88_refuted).
* **C89** (partial) The optimiser reports its point and log-probability. Files: `Fitting/Props.lean`. Method: algebra. Limits: The point and the function value are right; the reported log-probability is half the true one.
* **C90** (partial) A saved result reads back. Files: `Fitting/Saved.lean`. Method: decision procedure of the writer and reader as total functions over an HDF5 value type. Limits: For arrays of numbers or bytes with at least one dimension and a file name with a directory. HDF5 is modelled by which values it accepts.
* **C91** (partial) Combining chains adds the right sources. Files: `Quantile/Props.lean`. Method: induction on groups; list indexing. Limits: Holds for catalogs with distinct string ids and distinct bands that are no names of other columns; other bands raise (C91_bands). The catalogs the package writes have integer ids or none, and the call then always raises (C91_refuted).
* **C92** (proved) Percentile catalogs hold the percentiles of the samples. Files: `Quantile/Props.lean`. Method: order statistics of a sorted permutation; cumulative sums. Limits: Over any linearly ordered field with floor; NaN samples are not modelled.
* **C93** (partial) Weighted quantiles use the weights. Files: `Quantile/Props.lean`. Method: order statistics of a sorted permutation; cumulative sums. Limits: The weight of the largest sample is never used (C93_refuted).
* **C94** (proved) An EM pass keeps the mixture well formed and matches the image's moments. Files: `Em/Props.lean`. Method: EM as an iteration over the reals: invariant for well-formedness, Jensen's inequality for the likelihood, explicit runs for the negations. Limits: Exact arithmetic over the reals.
* **C95** (partial) EM never lowers the likelihood. Files: `Em/Props.lean`, `Em/Fit.lean`. Method: EM as an iteration over the reals: invariant for well-formedness, Jensen's inequality for the likelihood, explicit runs for the negations. Limits: Holds from the first pass on (the amplitudes then sum to one). The first pass lowers the likelihood when the starting amplitudes sum to more than one (C95_first_pass_refuted).
* **C96** (partial) Every repeat of a mixture fit gives an answer that describes itself. Files: `Em/Fit.lean`. Method: EM as an iteration over the reals: invariant for well-formedness, Jensen's inequality for the likelihood, explicit runs for the negations. Limits: Holds for EM answers whose likelihood is a number. The least-squares branch always raises, an unsettled repeat gives no answer, parameters stored after a first-pass nan are overwritten by the next repeat, and the greedy start adds instead of subtracting.
* **C97** (proved) PSF data made from a fitted mixture describe the fitted image. Files: `Psfdata/Props.lean`. Method: algebra of the gaussian mixture; list layout. Limits: For the demo version of the script. The older copy in approx/psf reads the key sy, which the current mixture model no longer produces. float32 storage not modelled.
* **C98** (proved) Sersic utilities describe the Sersic profile. Files: `Profile/Props.lean`. Method: integrals of the profile with Mathlib's interval integrals and Gamma function; inverse by the intermediate value theorem. Limits: scipy's incomplete gamma function is defined by its integral and its inverse is proved to exist.
* **C99** (partial) The Kron radius is the flux-weighted mean radius. Files: `Profile/Props.lean`. Method: integrals of the profile with Mathlib's interval integrals and Gamma function; inverse by the intermediate value theorem. Limits: Holds without a limit. With a limit the value lacks the factor Gamma(3n)/Gamma(2n).
* **C100** (partial) Radial profiles of gaussian mixtures carry the stated flux. Files: `Profile/Mixture.lean`. Method: integrals of the profile with Mathlib's interval integrals and Gamma function; inverse by the intermediate value theorem. Limits: The profile, cumulative curve, fitted mixture, target, radius of a fraction and round image model are proved. The helper normal lacks a factor 1/sqrt(2 pi), and the shear arguments of the image model have no effect. The smoothed Sersic target is the subject of C157.
* **C101** (partial) The state of a run on disk is the state of the scene. Files: `SuperScene/Disk.lean`. Method: file system as a function of the path; Python's `str.replace` by induction on the characters. Limits: Holds for names that end in .fits with no other .fits in the path. Without .fits in the name the log overwrites the catalog; with .fits in the directory the log is not found. FITS and JSON encodings are taken to read back what was written.
* **C102** (partial) A child answers every task once, in order, under its own tag. Files: `Dispatcher/Child.lean`. Method: induction on the message list. Limits: Holds for a work function that does not raise; an exception ends the child, and the shipped dummy_work raises on every task.
* **C103** (partial) Appending catalogs keeps all rows under their names. Files: `Catalog/Append.lean`. Method: induction on the files and on the names. Limits: Holds when every input has all four names. Otherwise the fallback by position reads the primary HDU (raises) or the table before the right one.
* **C104** (partial) The smoothness prior has a valid covariance. Files: `Profile/Smooth.lean`. Method: power series of the exponential and the Vandermonde determinant; sums of squares for the other kernels. Limits: The default kernel is always valid, the finite-difference kernel whenever its operator is invertible, the triangular kernel for scales below one; above two (the default is three) the triangular kernel is not positive definite.
* **C105** (partial) A linked region contains its seed and is filled nearest first. Files: `Linked/Order.lean`. Method: induction on the candidate list of the filling loop; sortedness of `argsort`; witnesses for coincident sources and for unequal radii. Limits: Proved with separation measured as distance over the sum of the radii of influence, and for the seed when no other source is at the same place. With plain distance (as the docstrings say) and for coincident sources the claim is false.
* **C106** (partial) A patch made from FITS files lists every overlapping exposure, sorted by band. Files: `Region/Fits.lean`. Method: pointwise characterisation of the filter; sortedness of a concatenation by band; witness of a region crossing an image. Limits: The order is proved in full and the rule for listing characterised; that overlapping images are listed is proved for boxes aligned with the pixels and no larger than the image, and refuted for regions crossing the image. Patches from dictionaries read an attribute that is never set.
* **C107** (partial) Pixels read from FITS files are those of the region, and bad pixels carry no weight. Files: `Region/Fits.lean`. Method: case analysis on finite, infinite and NaN values; membership and absence of duplicates in the filtered pixel grid; padding from C43. Limits: Proved with the corners the code uses; with pixel centres at whole coordinates these are half a pixel off, for which a witness is given.
* **C108** (partial) The result of a fit goes back to the right sources. Files: `Fitting/Task.lean`. Method: composition of the theorems on chain catalogs, samples, covariance blocks and check-in, with the place of each entry computed. Limits: Parameters: proved in full. Mass matrices: proved when the patch has all bands; otherwise the matrix is silently not stored and the next one has the wrong size (proved).
* **C109** (partial) Scene coordinates measure distances on the sky. Files: `SuperScene/Sky.lean`. Method: rotation of the sphere by algebra on sines and cosines; the haversine formula for the separation; concavity of the sine for the upper bound; the cache by induction on the changes. Limits: Frame, lower bound and cache proved; the upper bound needs the longitudes to be close in the frame, which fails for catalogs across right ascension zero (proved); a second ingest keeps the old coordinates (proved).
* **C110** (proved) The gradient check compares like with like. Files: `Posterior/CheckGrad.lean`. Method: invariant of the cache carried through the loop over parameters; the symmetric difference quotient tends to the derivative. Limits: Any careful earlier use of the object (its cache is fresh); exact arithmetic.
* **C111** (partial) A task leaves the patch describing its sources. Files: `Fitting/Coherent.lean`. Method: the reference coordinates followed through every packing of metadata, by induction over the blocks and sources packed. Limits: sample, and optimize without linear optimisation: proved. With linear optimisation a result filled afterwards has all positions off by the offset of the last source (proved).
* **C112** (partial) Calibrated fluxes do not depend on the zero point. Files: `Storage/Calib.lean`. Method: identity of real powers, on top of the ingest theorem of C39. Limits: Proved for exposures with ABMAG. An exposure without it is stored in counts with no error, which agrees only at zero point 31.4 (proved).
* **C113** (partial) Astrometry loaded up front changes no answers, and the table of exposures is a table of the exposures. Files: `Storage/Calib.lean`. Method: induction over bands and exposures for the two caches; the rows by induction over the flattened headers. Limits: Proved for header astrometry. With a file of solutions and use_gwcs but without load_all (the default) the header solution is used (proved). Storing a keyword in a typed column is a parameter.
* **C114** (partial) Residual images are those of the parameters asked for. Files: `Device/Residuals.lean`. Method: the readiness invariant of C47 kept by every call, by induction over the calls. Limits: Residuals: proved on both devices for all sequences of calls. render is refuted: it negates a list, so it never returns; it also does not send the new metadata to the device (stale on a GPU, dangling pointers on a CPU).
* **C115** (partial) Residual files give back what was fitted. Files: `Postprocess/Saved.lean`. Method: an invariant of the partly written tree of names, by induction over exposures and attributes, then reading back. Limits: Proved for exposures with distinct names that do not lie inside one another. An exposure given twice is refuted: the second one is read back with the data and residuals of the first, without an error.
* **C116** (partial) Reports cover every patch and label it by its number. Files: `Postprocess/Reports.lean`. Method: division with remainder for pages; uniqueness of the sorted permutation for labels. Limits: All patches are shown if their number is a multiple of the patches per page, else the last ones are left out. Labels are the patch numbers for up to ten patches; with eleven, label 1 is patch 10. The call on the command line passes a string and fails.
* **C117** (partial) The catalog of an optimization run starts the next run. Files: `Postprocess/Postop.lean`. Method: what is written as an equivalence, the list of bands through joining and splitting, then the model of the reader (C37) on the result. Limits: Proved for a list of bands given, one catalog in the directory, a raw catalog named .fits, and shapes in the ranges the reader accepts. Otherwise refuted: bands missing in patch 0 are lost, shapes are clipped to ranges narrower than the prior, the catalog taken depends on the order of the listing, and a raw catalog of another name is overwritten.
* **C118** (partial) Chain reports show every parameter of every source. Files: `Postprocess/Reports.lean`. Method: the assignment of columns to panels as a permutation of the parameters. Limits: Proved for two or more bands and a chain with tuning samples; with one band, or without tuning samples (the default of run_lmc), no report is made.
* **C119** (partial) Plot options apply to the plot they are given for. Files: `Postprocess/Reports.lean`. Method: induction over the sequence of calls. Limits: Refuted: options of a call stay for later calls, since the default dictionary is updated in place. The options used are characterised for all sequences of calls.
* **C120** (partial) Galaxies have the gaussian amplitudes that were fitted, and their flux is the flux parameter. Files: `Profile/Spline.lean`. Method: indexing of products of lists and uniqueness of the sorted list of distinct values; linearity of interpolation; derivatives from equality near a point. Limits: Flux conservation is proved everywhere for increasing grids of at least four values. Amplitudes at nodes need increasing grids: a decreasing one is read without an error and exchanges the amplitudes, one with a repeated value cannot be read. Derivatives are proved inside the table; below it the derivative by radius is reported as zero where the amplitudes jump. The splines of scipy are a parameter with stated properties, met by polynomial interpolation.
* **C121** (partial) Every source gets its turn and a run can finish. Files: `Linked/Turn.lean`, `SuperScene/Turn.lean`. Method: invariant over histories for sources that are never active; induction over the list of seeds, each turn returning to a state with nothing checked out. Limits: Linked regions: proved for sources at distinct places, the second part for radii of influence that do not change and are no larger than the boundary radius, for every worker and every order of seeds. Circular regions: false. A source with nscale times rhalf at least maxradius (rhalf of 2 arcsec with the defaults) is never active in any history, so a run that contains one never stops; a source with as many smaller neighbours as active slots is not active in its own region. For catalogs without such sources a finishing history exists.
* **C122** (partial) A posterior uses exactly the bounds, transform and prior it is given. Files: `Posterior/Init.lean`. Method: case analysis over argument lists; unfolding of the evaluation with each default. Limits: Proved except where the code fails: bounds of which one vector is zero everywhere are refused; a SlowPosterior made without a prior raises at every evaluation, its nll always raises, and its residuals raise for arrays of two or more parameters.
* **C123** (partial) A static patch holds its stamps and sources and can be taken apart. Files: `Patch/Static.lean`. Method: loop invariant for the running band index on sorted lists; induction over exposures for astrometry and PSFs; splitting at cumulative sizes inverts concatenation. Limits: Building: proved, with the reference points and calibrations of the first source for all sources, and with the failures stated: no patch is built when a mask is passed or the scene has inactive sources. Taking apart: always raises because the class of stamps is not known to the module; with it known, the pixels come back with their padding and the sky coordinates are stored as reference pixels.
* **C124** (partial) Bounded optimisation and nested sampling explore the caller's box. Files: `Fitting/Other.lean`. Method: unfolding with a minimiser known only to keep to its box; the scaling of the cube is inverted explicitly; the refutation bounds the sigmoid on [0, 1]. Limits: The bounded optimiser obeys the caller's bounds only for models without a transform; with one the bounds have no effect. Nested sampling maps the unit cube onto the box, but evaluates the likelihood of the transformed point; right for the identity transform.
* **C125** (partial) A run starts inside its own bounds. Files: `Bounds/Start.lean`. Method: composition of rectification (C37), bounds (C34) and the check, with clipping characterised by strict inequalities; the transform's bijection (C29). Limits: Holds exactly when the input axis ratios exceed 0.4 (square root) and the angles are strictly within 0.6 pi; always for limits wider than the ranges of rectification. The parent process ignores the limits of the configuration.
* **C126** (partial) Shape columns of catalogs describe the ellipse that is drawn. Files: `Shapes/Props.lean`. Method: trigonometric identities for the variance along a direction; pointwise equivalence of drawn and rendered ellipses; induction over catalogs for the lists of regions. Limits: The description of the output is right, that of input catalogs (q = b/a, pa east of north) is not. The table conversion always raises; repaired, its two errors cancel in the drawn ellipse but the radius is too large by a/b. Region files: right up to a factor of two in size when the angle is read east of north, turned by a right angle when read from the longitude axis; write_sourcereg always raises.
* **C127** (partial) A wrapped coordinate system behaves like the original. Files: `Wcs/Wrapper.lean`. Method: case analysis over the two kinds of objects; reduction of the local scale to C57. Limits: Proved for calls with two numbers; calls with astropy's origin argument raise, and an origin given as keyword is ignored.
* **C128** (partial) Stores keep at most one file open. Files: `Wcs/Wrapper.lean`. Method: invariant of a state machine, by induction over the sequence of uses. Limits: Proved for pixel stores; a PSF store opens its file at every access and never closes one.
* **C129** (partial) Rendering a source on a stamp gives its pixel integrals and their derivatives. Files: `Slow/Render.lean`. Method: the image by matrix algebra against the density of a normal distribution and its Laplacian; the gradients by the chain rule over the gaussians (C64) and, for shears, by the change of variables of C54 with periodicity in the angle. Limits: The image is proved in general, the gradients wherever they are numbers; without flux in the filter, or for the shears of a round galaxy, the code gives none although the derivatives exist.
* **C130** (partial) Positions survive single precision. Files: `Float/Position.lean`. Method: a definition of rounding to nearest even with p bits, its error bound and nearest-point property; propagation of absolute errors through each operation; exactness of differences of close numbers. Limits: Proved with explicit error bounds; exact return of shifted coordinates only for those within a factor of two of the reference, others return up to 2^-42 degrees.
* **C131** (partial) The sums of CPU and GPU differ by rounding only. Files: `Float/Sums.lean`. Method: an error invariant closed under rounded addition, by induction over sums; the generic model of the reductions (C52) run with rounded numbers and, for the bound, with triples of value, size and count. Limits: Proved up to 2^p pixels for p bits; for gradients in single precision the bound is not small for very many pixels, and the CPU sum then stagnates.
* **C132** (proved) A parallel run equals a sequential one. Files: `Dispatcher/Serial.lean`. Method: the effect of a check-in is split by source; an invariant over histories says what each region saw and that later regions share no active source with it; a sequential run is then built by induction, since a checkout depends only on the sources in the ball around its seed. The event loop is shown to produce such histories. Limits: Conflict serialisability of the event loop; the equivalent order is that of the checkouts, and a run shows that the order of arrival is not one (a source fixed in one region may be active in a later one, see C03).
* **C133** (partial) Parent and children never block each other. Files: `Dispatcher/Net.lean`. Method: parent and children are composed into one transition system with channels; an inductive invariant gives the state of each channel and child; a measure on the parent's place and the channels gives the bounds on steps; deadlock freedom is shown for unbuffered sends from every state reachable with buffered ones, which covers all mixtures. Limits: Proved for work functions that do not raise. False of the code if a process raises: after an exception in the parent no child stops, and with the work function that the code uses (it always raises) every run gets stuck without checking in anything.
* **C134** (proved) A distributed run gives the catalog of a single process. Files: `Dispatcher/System.lean`. Method: the invariant of C133 says which answer lies in which mailbox; along the steps of the composed system a history of regions is carried that refines the abstract parallel run of C132, whose serialisation theorem then applies. Limits: Joins C132 and C133: the history of regions is built along the steps of the composed system. Answers received after the targets are met are thrown away by the code (C20); they are the regions missing from the sequential run.
* **C135** (partial) Pixel values in single precision. Files: `Float/Pixel.lean`. Method: a small error calculus (a computed number stands for an exact one up to a factor, relative to the size of its terms) carried through the kernel line by line; the exponential turns the absolute error of the exponent into a relative one; exp(Q/2) >= 1+Q/2+Q^2/8 then bounds the product for every distance at once. Limits: Rounding to 24 and 53 bits without overflow and underflow. The gaussians are taken as they are in memory, so errors made when they are built are not included. Partial because the bound fails for elongated gaussians, see C135_elongated_refuted; C135_general holds for all shapes.
* **C136** (proved) What the sampler sees is the posterior of the data. Files: `Fit/Evaluate.lean`. Method: the sources the kernel reads are shown to agree, in all the kernel looks at, with the sources the vector means; the response of a run on either device is then that of the sequential kernel on these sources; C50 band by band, C31 for the stacking and the chain rule; chains by induction with the scene handed on. Limits: Real arithmetic. The composition of the models of C22, C25, C28-C31, C49-C53. The conditions are those of a fit as forcepho sets it up (Good), nonsingular geometry (Regular), and for the gradient the differentiability of the parts at the point (Smooth); C120 gives the differentiability of the mixture inside the spline table.
* **C137** (partial) The combined half-light radius is one. Files: `Postprocess/HalfLight.lean`. Method: `np.argsort` is any sorting function; induction along the sorted pixels for the interpolation; the image is positive because the covariance is at least the identity, so the second order correction cannot be below -1/12; the image is that of C129, source by source. Limits: All of it holds (C137_chain, C137_half, C137_invariant) except the independence of the sort: four pixels with fluxes 3, 1, 1, 1 give 2/3 or 1 (C137_order_refuted); without equal distances it holds (C137_order). Not covered: images with negative pixels, for which np.interp is given abscissae out of order; selections of sources.
* **C138** (partial) Gaussians built in single precision are the true ones. Files: `Float/Build.lean`. Method: Rounding error analysis with a factor for each rounding relative to the size of the terms up to the covariance; from there in the order of quadratic forms: the inverse reverses it, the determinant keeps it, so only one power of K is lost; the entries of the inverse share the error of the determinant, which is split off as a common factor. Limits: Shape, amplitude, pixel values and residuals are right to a tolerance proportional to K, a bound on cancellation (C138_shape, C138_amplitude, C138_pixel, C138_residual); K is 2/q^4+2 or that of the PSF for square pixels (C138_square_pixels). The last sentence fails: for an axis ratio of 1/4096 the exponent is three times too large (C138_elongated_refuted). Overflow and underflow are left out; the centre is the one in memory, bounded by C130.
* **C139** (partial) A pymc3 run samples the named parameters of the scene. Files: `Fitting/Pymc.lean`. Method: Names as strings: the number after the last underscore can be read off, so names are injective. Scenes as in C22; the sampler is an arbitrary function; draws are stored and read back by name and transposed. Limits: Names are different and line up with the parameter vector when no source is fixed (C139_names, C139_scene); the box, target and gradient reach the sampler and its points come back in columns that follow the names (C139_run); the gradient obeys the chain rule (C139_gradient). Fails: the default bounds raise (C139_default_refuted), the starting position is ignored (C139_start_refuted), fixed sources shift the names (C139_fixed_refuted), box and chain are in sampling parameters, not scene parameters (C139_transform_refuted).
* **C140** (proved) The chi-square of single precision is that of the exact model. Files: `Float/Whole.lean`. Method: The centre by C130 and one more rounding; a gaussian with its second order correction changes by at most four times its amplitude per pixel (its derivative along a segment is bounded by exp(Q) >= 1+Q+Q^2/2+Q^3/6); residuals and chi-square by induction over gaussians and pixels. Limits: Composes C130 (positions), C138 (gaussians), C135 (pixels) and C131 (accumulation): the centre (C140_center), one gaussian in a pixel (C140_pixel), the residual of a pixel (C140_residual), the chi-square of a band on the CPU (C140_chi2). Overflow and underflow are left out.
* **C141** (proved) The single precision gradient is the derivative of chi-square. Files: `Float/Gradient.lean`. Method: The error calculus of C135 line by line, with a free choice for every product whether it is rounded; the derivative of the pixel value along a direction by calculus; e^x >= 1+x+x^2/2+x^3/6+x^4/24 bounds polynomial times exponential for all distances; sums as in C131. Limits: One gaussian in one pixel (C141_term), the gaussians of a source (C141_source), a band on the CPU (C141_band) and on the GPU (C141_band_gpu). The Jacobian is taken as it is in memory: that its exact value is the derivative of the gaussian is C50. Overflow and underflow are left out.
* **C142** (partial) Packing a scene into a patch is complete or has no effect. Files: `Patch/Pack.lean`. Method: The packing as a function on attributes and scene that also returns the state at an exception; the two loops by induction over sources and exposures with the written prefix as invariant; PSF blocks from C45. Limits: Holds for scenes without fixed sources (C142_pack_partial). Fails in the code: with one fixed source and one exposure packing raises IndexError after it has moved all sources (C142_fixed, C142_refuted), because the arrays are allocated for the free sources and filled for all; the shift can be undone (C142_restore). Packing never passes the header key, so all flux calibration factors are one (C142_pack_partial, against C142_fluxcal).
* **C143** (partial) The configuration saved with a run can be read back. Files: `Config/Json.lean`. Method: Mutual structural induction over values, lists and dictionaries; the specification is an inductive relation between written and read values, and an inductive notion of a value inside another. Limits: What is written is read back as expected (C143_back), exactly which values can be written (C143_encoder, C143_dumps), values without numpy objects come back unchanged (C143_roundtrip_partial), and with the encoder all configurations can be written (C143_written). Fails in the code: a configuration with a data type or a list is never stored with the samples (C143_lost), and a stored data type is refused when read again (C143_dtype_refuted).
* **C144** (partial) The text of a log gives the messages back. Files: `Config/Logger.lean`. Method: Induction over the messages; Mathlib's lemma on splitting an intercalated list. Limits: Messages with line breaks, and a single empty message, can not be told apart in the text (C144_refuted).
* **C145** (proved) The single precision Jacobian is the derivative of the gaussian. Files: `Float/Jacobian.lean`. Method: Calculus for the inverse of a symmetric matrix and for the amplitude along a curve of parameters; the error calculus of C135 for the matrix products; entries of the stored inverse from its quadratic form (C138) by polarisation. Limits: Derivatives by HasDerivAt of the exact inverse covariance and amplitude of C138. Shape entries to 3 K / 2^19 and amplitude to 11 K / 2^20 of the terms that are added up, whose size C145_size bounds by K and the axis ratio; flux, index and radius to 3 K / 2^20. The derivatives of the spline weights are inputs here (C120). Overflow and underflow are left out.
* **C146** (proved) The gradient of a band in single precision is the gradient with the source parameters. Files: `Float/Param.lean`. Method: The derivative of the value in a pixel along any curve of gaussians; error calculus for it in terms of close gaussians and close directions, with a quartic lower bound of the exponential to absorb the polynomial factors; then the sums of C141 for any bound of a term. Limits: Joins C138 (gaussian), C145 (Jacobian), C141 (accumulation) and C131 (sums). For gaussians whose inverse covariance has diagonal entries up to 3.9 and correlation up to 1/sqrt 5, and cancellation K up to 1024, each term is right to K / 2^10 of the size of the change. The centres are those in memory (C140 bounds their rounding); the derivatives of the spline weights are inputs (C120). Overflow and underflow are left out.
* **C147** (partial) The kernels read the arrays that Python wrote. Files: `Layout/Props.lean`, `Layout/Exchange.lean`. Method: Byte memory with load and store; the alignment rule of numpy and that of C as separate definitions, agreeing for any list of members of equal sizes by induction; the four structures declared on both sides; little endian numbers round trip; reading an element at an index from the bytes of a C ordered array by induction on the dimensions. Limits: Proved for the default types: with pix_dtype or meta_dtype other than float32 it fails (C147_double_refuted: pixel 2 i and 2 i + 1 are the halves of element i), and with 32768 exposures in a band or before one the 16 bit counts wrap (C147_exposures_refuted). The platform is little endian with 8 byte pointers and natural alignment; floats are carried as their bit patterns.
* **C148** (partial) The limits Python reads from the header are the limits of the compiled kernels. Files: `Limits/Numbers.lean`, `Limits/Props.lean`, `Limits/Texts.lean`. Method: The regular expression as a backtracking matcher with continuations, `int` and `float` of a text, and the import loop; against joining lines, comment removal and `#define` of the C++ standard and a grammar of its constants. Inversion and completeness of the matcher by induction; numbers in both directions; the tables by induction over the lines; the actual header is shown to be plain. Limits: Proved for all headers of plain lines (no block comments, continued lines, other directives, blank after #); left out are integers with a leading zero, which C reads as octal (C148_octal_refuted), and underscores or inf/nan, which are no constants of C. C148_shape_refuted shows that the restrictions to plain lines are needed. Decimal fractions are compared exactly, before rounding; conditional compilation is not modelled.
* **C149** (partial) A patch class made of a storage class and a device mixin behaves as both, and free() releases the device memory. Files: `Device/Classes.lean`, `Device/Compose.lean`. Method: Python's C3 linearisation for any class graph, with the merge shown to keep every order and repeat nothing; the class table of forcepho.patches with classes a user may derive; two unrelated bases give one order after the other. The resolved free is then run on the ledger of device buffers of C48. Limits: Every method but one resolves as intended. free() of JadesPatch, SimplePatch and every class with the storage class first is the empty one of PatchBase and releases nothing (C149_free_empty, C149_free_refuted); with the GPU mixin first it releases everything (C149_free_partial). Destruction of the patch releases everything in both cases (C149_destroy), assuming PyCUDA handles release their buffer when destroyed and nothing else holds the patch. object and overrides of free by a user are not modelled.
* **C150** (partial) Contours of a corner plot enclose the stated share of the samples. Files: `Contour/Props.lean`. Method: Lists over an ordered field: sorted densities with running sums, inversion of the last index whose share fits; the separating loop with fuel, shown to end by induction on the list (each round of the tail meets the head at most once), and shown never to end on zeros. Limits: The share, the order, the end of the loop for a histogram with samples and fractions below one, the padding and the colours are proved. Not true: strictly increasing levels when separating equal ones meets another (C150_increasing_refuted), and an end when no sample lies in the span (C150_hang_refuted); a smoothing between one and two raises (C150_bins), and so do zero and negative ones, the latter with a message about the samples (C150_smoothings). Exact arithmetic; the histogram and its smoothing are inputs.
* **C151** (partial) A PSF file describes the image it was made from. Files: `Slow/Section.lean`. Method: Section limits as floors of clipped rationals, computed for every odd and even size; sums over index ranges split at the section; the rows written are shown equal to those of C85 for square images, and the displacement computed for all others. Limits: The section lies in the image, the flux share and the normalisation are right, and for a square image the gaussians give the model image. Not true: the section is centred (C151_centre_refuted: half a pixel low for odd, one pixel for even sizes), and the positions for an image with different numbers of rows and columns (C151_position_refuted). Exact arithmetic; the fit is an input.
* **C152** (partial) Every panel of a corner plot shows the parameters its labels name. Files: `Corner/Panels.lean`. Method: The loops as lists of (row, column, what); the content of one panel computed for every size by cutting the lists at the row and the column; the histogram as sums by bin, linear in the weights. Limits: Panels, points, labels, quantiles and the peak with weights are proved. Not true: true values are drawn in the histograms of later parameters and in no panel off the diagonal (C152_truths_refuted); labels are not optional (C152_labels_refuted); a peak for a histogram without weights raises (C152_peak_refuted). The drawing itself is not modelled.
* **C153** (partial) The recipes of the documentation do what they say. Files: `Docs/Recipes.lean`. Method: The recipes as functions on top of the models of ingestion (C39), chain catalogs (C59), check-in (C01) and the catalog of samples (C66); the loop by induction over the rounds, for any choice of file names and log entries. Limits: None of the three recipes does what it says: the mask is used the other way round (C153_mask_refuted), the trace is one sample of every source (C153_trace_refuted), the loop overwrites the samples of all but the last round and logs every patch as 0 (C153_loop_refuted), so that the catalog of samples marks the other sources as never fitted (C153_catalog_refuted). With a numbered file and log entry per round every chain is found again (C153_numbered).
* **C154** (partial) A likelihood is never silently computed from what is not a number. Files: `Float/Special.lean`, `Float/Range.lean`, `Float/Ieee.lean`, `Float/Same.lean`. Method: A model of single and double precision with overflow, gradual underflow, infinities and not-a-number; the statements of the kernel and of the construction of gaussians in it. Propagation by cases; ranges by carrying a relative error and an allowance for underflow through every operation, then by induction over the gaussians and the pixels. Limits: Positions, axis ratios and position angles that are not a number give no residual in any pixel, hence no chi-square (C154_source, C154_axis, C154_chi2); a flux that is not a number is noticed only in pixels where the source is not cut off (C154_flux, C154_silent_refuted), and an infinite position on half of the pixels is treated as a source far away (C154_far). Finite chi-square in range: C154_value, C154_range, C154_finite. The arithmetic with overflow, underflow and special values is tied to IEEE 754 by C154_rounding and C154_operations, and to the arithmetic without them of C135-C138 by C154_same. Signed zeros are not modelled: division by zero gives an infinity of the sign of the numerator.
* **C155** (partial) The demonstrations make and fit the data they describe. Files: `Demo/Props.lean`. Method: The scripts of the demonstrations as functions: scene, stamp, drawn and fitted covariance, noise, PSF table, files as lists of headers, running mean, region. Matrix identities for shapes, induction over sources, gaussians and dithers, case analysis of files; the region through the model of FITSPatch of C106 with a tolerance of nine percent on the astrometry. Limits: Shapes, positions, noise, PSF tables and the weighted mean of dithers are as the fit assumes (C155_shape, C155_place, C155_dither, C155_noise, C155_deep, C155_psf, C155_mean). Violated: the separation of pairs is in units of the second radius and not the first, fluxes, axis ratios and angles asked for are ignored, PSFs of several gaussians have too much flux, the dithers cannot be written, mosaics have no filter and are not a number where one dither is missing, the fit of colours cannot find the filters, the script for one PSF fails without --snr, and the region misses images at least twice as high as wide.
* **C156** (partial) A pixel of the model is the light of the sources, blurred by the PSF and integrated over the pixel. Files: `Kernel/Light.lean`, `Kernel/LightImage.lean`. Method: Specification with Bochner and interval integrals, separate from the kernel. Convolution of normal densities by completing the square and the gaussian integral in two dimensions; pixel integrals by the fourth-order Taylor bound along lines through the pixel, with a bound on the Hermite polynomial of degree four that holds at all distances; sums over gaussians by continuity and integrability. Limits: The specification is written with integrals: brightness on the sky with unit flux, its convolution with the PSF over the plane, and the integral over the pixel. The gaussian of the kernel is the convolution, exactly (C156_blur, C156_common for all components together, C156_point for stars); the pixel is the integral with error at most height times 7/1440 of the squared trace plus the cut (C156_pixel, C156_image). Violated when gaussians are narrow: with a trace above 24, a standard deviation below 0.29 pixels, the pixel at the centre of a source of positive flux gets negative counts.
* **C157** (partial) The fit of gaussian mixtures to Sersic profiles has one minimum, and its target is the smoothed profile. Files: `Profile/Objective.lean`, `Profile/Smoothed.lean`. Method: Objective over the reals with any number of gaussians; global minima by convexity along curves that are straight in the amplitudes; the penalty by the band matrix of second differences. The series by polar coordinates, the power series of the modified Bessel function and the gamma integral for each term, the remainder of the exponential series by induction, and dominated convergence with the inequality of Young. Limits: The mixture is a convolution of normal densities in the plane (C157_mixture), the objective a weighted mean square (C157_deviation, C157_scale), and it has only global minima without the smoothness penalty (C157_minimum, C157_stationary). The series of the target is within its first omitted term of the convolution of the profile in the plane (C157_smoothing), and tends to it for indices over one half (C157_convergence). Violated: the smoothness penalty is zero only when every height is one, so equal amplitudes are penalised and the penalty depends on the unit of brightness; a fit with free radii always raises. Overflow of the series is not modelled.
* **C158** (partial) The verification against a stored image accepts exactly what it says. Files: `Verification/Accept.lean`, `Verification/Names.lean`. Method: Comparisons over the reals with nan as a value; the error of the central difference by three applications of the mean value inequality, on the model of check_grad of C110; the scripts as lists of lines with names read and bound under conditions on the options. Limits: What each comparison accepts is proved exactly (C158_image, C158_chi2, C158_nan), and for gradients with the error of the central difference (C158_gradients). Violated: the functions that validate and display the residuals, and the making of a reference image, always stop at a name that is never bound (C158_names_refuted). Rounding is not modelled.
* **C159** (partial) Every module of the package and every script can be imported, whatever optional packages are installed. Files: `Imports/Props.lean`, `Imports/Optional.lean`, `Imports/Claims.lean`, `Imports/Demos.lean`. Method: The import statement as a machine on sys.modules: partial modules, submodules bound in their parents, `from` falling back on submodules, `__all__`, names bound under try. The text of each module is transcribed as a table of its top-level statements. An invariant over all sessions states that complete modules found all they asked for; a simulation between two installations shows that optional packages matter only for names bound under try. Limits: All modules of the package but the dispatcher are imported for every set of optional packages (C159_imports_partial, by C159_optional), and export what they list (C159_exports_partial). Violated: the dispatcher asks for a name that its module cannot have, so no session can import it (C159_dispatcher_refuted); the public names of postprocess include an undefined one (C159_exports_refuted); many tests and scripts import modules and names that do not exist (C159_scripts_refuted). Modules from outside are taken to have the names asked of them.
* **C160** (partial) The validation on simulated galaxies reports for every point of its grid the fit of that point. Files: `Galsim/Runs.lean`, `Galsim/Images.lean`. Method: Grid and tags as functions on rationals and characters, with rounding characterised by distance and evenness; the run as a fold over the directory of images and chains; images over the reals, the shear of galsim as a matrix compared with the matrices of scale and rotation of the model, the aperture flux through the profile of C98. Limits: The grid, the tags, the loops, the catalog and the images are proved for all grids and points. Violated: the summary over Sersic profiles uses the PSF width of the last point for all points (C160_width_refuted); points that round to the same tag share one fit (C160_collision_refuted); over PSFs an interrupted fit is never redone (C160_restart_refuted); a second run in a directory writes its grid over the first but cannot write its summary (C160_rerun_refuted); the configured flux is ignored (C160_flux_refuted); sources of different radii can coincide (C160_separation_refuted); a PSF of several gaussians has a flux above one (C160_psf_refuted); grids named *.yaml are never read (C160_yaml_refuted); the last figure always raises (C160_figure_refuted). The drawing by galsim and the sampler are not modelled.
* **C161** (partial) The best fit of a mixture predicts and shows what was fitted. Files: `Psfdata/FitProps.lean`, `Psfdata/Figures.lean`, `Psfdata/SersicFit.lean`. Method: Dictionaries as lists of named vectors with numpy's broadcasting, the sampled values arbitrary; the prediction compared with the fitted mean for all options. Eigenvalue decompositions enter by what they promise, and the outline drawn is compared with the level set of the gaussian over the reals; histograms and running sums by induction over the edges. Limits: Proved for any values of the sampler. The PSF made by make_psf.py predicts the fitted image for two gaussians or more. Violated: a fixed amplitude or centre is not among the returned parameters, so the prediction has amplitude one about the origin (C161_amplitude_refuted, C161_sersic_amplitude_refuted, C161_sersic_centre_refuted); with negative gaussians the prediction raises (C161_negative_refuted); a fit of one gaussian never becomes a PSF and is not drawn (C161_single_refuted, C161_ellipse_single_refuted); ellipses have their axes swapped (C161_ellipse_refuted); the curve of the model is divided by the flux of the image (C161_growth_refuted); the demonstration calls the prediction with an unknown keyword (C161_demo_refuted). The sampler and the drawing are not modelled.
* **C162** (partial) The figures of the demonstrations show what they say. Files: `Demo/FigureProps.lean`. Method: Panels as lists of what they show; positions of draws, columns, sources and colours compared with the chain for all sizes. Total fluxes by induction over the sources, ranges as least and greatest elements, aperture fluxes by the monotone fraction of C98, digits by the logarithm. Limits: Violated: the movie shows the residual of one draw and marks another, later by the warm-up (C162_movie_refuted); the first draw is marked as the truth (C162_truth_refuted); the warm-up of the last fit is dropped from all (C162_warmup_refuted); two sources shown as one are mixed (C162_rows_refuted); the digits of the text are those of a number near one (C162_text_refuted); with a masked pixel the scale leaves out the residuals (C162_scale_refuted). Drawing itself is not modelled.
* **C163** (partial) The scripts of a demonstration find each other's files. Files: `Demo/FlowProps.lean`. Method: Paths as lists of characters with join, dirname, basename, replace and glob; names written by one script compared with names read by the next, for all directories and numbers, by lemmas on replace before and after a character that is not in the pattern, and on padded decimal numbers. Limits: Violated: residuals are looked for in another directory if the path says samples (C163_residuals_refuted); S/N that round alike share their files (C163_snr_refuted); none of the fits of the readme is where the figure of separate colours looks (C163_color_refuted); drizzled copies go to a directory that nobody makes if the directory says dither (C163_drizzle_refuted); a pair image needs a directory in its name (C163_pair_refuted); figures of a chain without a directory go to the root (C163_basic_refuted).
* **C164** (partial) A function never meets a name that its module lacks. Files: `Imports/Bound.lean`, `Imports/Lookups.lean`. Method: The import model of C159 with an invariant: modules not being imported have every name their executed statements bind, and no import takes a name away (C164_bound). The global names of each of 556 functions are tabulated from their texts; membership of each in the bound names is checked by the kernel; absence by the upper bound CanBind. Limits: Violated: thirteen functions name something that their modules never have: default_config_file ctext, sersic_model maxg, patch_to_stamps PostageStamp, check_multipatch vcols, write_sourcereg cat_to_reg, rectify_jades sourcecat_dtype, test_astrometry SimpleWCS, write_cutouts hdr (after a raise), the figures of the colour and pair demonstrations FormatStrFormatter and nexp, psf_grid_plot.py make_all_tags (C164_names_refuted). The names of each function are read from its text; which branch looks up which is not modelled, so that a name is covered in whatever order it is met.
* **C165** (partial) A figure of pixel values shows each value at its pixel. Files: `Postprocess/Shown.lean`. Method: imshow is modelled as the value shown at each point for an array, an origin and an extent; the array comes from the image filling of Postprocess. The specification Shows speaks of the last value given for a pixel only. Residuals and limits by rational and real arithmetic. Limits: Proved for integer pixel coordinates on given axes, and for the residual panel. Violated: without axes, the default, neither show_exp returns (C165_axes_refuted); fractional coordinates may index out of bounds (C165_fraction_refuted); in the radial plot the line labelled 1% of max pixel is compared with residuals multiplied by the radius (C165_radial_refuted) and faint values are cut off (C165_limits_refuted).
* **C166** (partial) Files of PSF fits contain what was fitted under the right names. Files: `Psfdata/Output.lean`. Method: Combining is an induction over files and bands with the destination's names as invariant; the FITS layout by index arithmetic of reshape and transpose; the file name by the model of str.replace of C101. Limits: Combining: proved when it works and what it gives; files with the same band, e.g. an updated fit, cannot be combined (C166_combine_refuted). Violated: if the output name has no .h5 in it, e.g. psf.hdf5, the FITS file overwrites the PSF data just saved (C166_save_refuted); the script does not hand over the band, so that the header of every FITS file says F090W (C166_filter_refuted). Position and scale keywords are not modelled.
* **C167** (partial) Every call passes arguments that the called function takes. Files: `Calls/Props.lean`. Method: Python's binding of arguments as a function over keywords, characterised for all values (C167_bind); the tabulated signatures and calls are checked against the characterisation by the kernel. Limits: 848 calls of 391 functions are tabulated from the texts; all bind but three, which fail for all values: create_ans without original_dict in fit_mvn_mix (so method_opt=scipy_ls never returns), psf_prediction with sy in the self-test of psf_mix_hmc.py, compare_apflux with bands in test_sersic_mixture.py (C167_calls_refuted). Which function a name refers to is resolved when the table is made; calls of methods of other objects, and what *args and **kwargs hand on, are not covered.
* **C168** (partial) Comparison figures show every fit against its truth. Files: `Galsim/Compare.lean`. Method: Rows as samples, log probabilities and true values over the rationals; panels as a list; percentiles from C92. The specification of a point is separate (RightPoint). Limits: With medians the figure is proved right for all catalogs. Refuted: with point_type=map there is no figure when the most probable sample of a fit is outside its central 68 percent (negative bar, C168_map_refuted); by default only the largest split value has a panel (C168_onlymax_refuted). Colours, axes and labels are not modelled.
* **C169** (partial) Statistics of a run are those the sampler reported, and warm-up is not taken for samples. Files: `Chain/Stats.lean`. Method: Statistics as partial functions from names; an iff between the slice being right for all quantities and warm-up coming first. Limits: The last n_sample draws are the samples exactly if warm-up comes first and there is at least one sample; for a first patch of warm-up only, x[-0:] is everything and the catalog fails (C169_empty_refuted); a patch with fewer samples than the first has warm-up draws stored as samples (C169_warmup_refuted). littlemcmc itself is not modelled.
* **C170** (partial) The demonstration of the scene shows every source in its state and every region at its place. Files: `Demo/Scene.lean`. Method: The conversion as a list function over an ordered field, with convert_pa from C36; the colour of a point as that of the last layer holding it; the drawn ellipse as an inequality. Limits: Catalog, colours and numbers are proved (colours for regions whose active sources are fixed in none). Violated: fluxes that were not measured become measured fluxes of 1e-5 (C170_flux_refuted); the circle is drawn without the cosine of the declination, so that it can leave out active sources of the region (C170_circle_refuted). The square root and pi are parameters.
* **C171** (partial) The figure of a PSF fit shows the fitted gaussians. Files: `Em/Ellipses.lean`. Method: Over the reals: the ellipse as an inequality in matplotlib's parameters, the angle through Complex.arg; the spectral decomposition from the first eigenvector, shown equivalent to the level set of mvn_pdf. Limits: Ellipses and residuals are proved, with the specification of numpy's eigenvectors as hypothesis. Violated: the colour bar runs to 0.5 while the colours of the ellipses run to 1, so that amplitudes are read too low, with a scale from 0 to 0.5 by a factor of two (C171_colour_refuted).
* **C172** (partial) Files and figures of fitted Sersic profiles describe the fit. Files: `Profile/Files.lean`. Method: The written row and the plotted curves as functions of the fit result, with the profile functions of C98, C100 and C120. Limits: Violated: the model in the file is not that of the amplitudes in the file but larger by the sum of the amplitudes before scaling, which is not stored (C172_model_refuted). Number formats of the text table and the optimisers are not modelled; the smoothed profile is in C157.
* **C173** (partial) The test of undersampling compares the same flux in the same pixels. Files: `Slow/Rebin.lean`. Method: The row-major reshape as index arithmetic over an ordered field; blocks by division with remainder; grids and PSF as algebra; the worst residual by induction. Limits: Proved for the sizes the test uses. Violated: the branch of the binning function for sizes that are not smaller never gives an image, because the numbers of repeats are floats; sizes that do not divide are refused (C173_rebin_refuted). Rounding is not modelled.
* **C174** (partial) Identifiers and positions fit the columns of catalogs. Files: `Catalog/Columns.lean`. Method: numpy's casts as functions on integers and reals, with the rounding of Float/Basic; collisions characterised by congruence modulo 2^32. Limits: Proved for integers of 32 bits. Violated: larger identifiers wrap around silently, so that sources collide exactly if they differ by a multiple of 2^32, and fractions are cut (C174_ids_refuted); the catalog of a scene is in single precision, where identifiers collide above 2^24 and positions move by up to 0.08 arcsec (C174_scene_refuted). The casts of numpy are part of the model; floats outside the range of the integer column have no specified value.
* **C175** (partial) Stored test exposures read back as they were made. Files: `Slow/Fixture.lean`. Method: exposures, FITS files and pixel lists as structures over any ordered field; the reader's pixels characterised by membership and order, with the sky position of a pixel specified by the equation of the linear map. Limits: Proved for exposures with as many rows as columns. Violated: with other sizes values are read into pixels they were not made for (C175_shape_refuted), and the script that makes the data cannot be run: the number of exposures is taken for the bands, python 3 has no iteritems, and more than six bands have no pixel scale (C175_make_refuted). Rendering and noise are not modelled; that the headers keep floats is part of the model.
* **C176** (partial) Switches and configurations act as given. Files: `Config/Switches.lean`. Method: python's int() on lists of characters, argparse as a function of what is given; induction over the digits. Limits: Proved for the switches of the main configuration, which are integers, and for flags. Violated by --fitsout and --overwrite of the PSF scripts, which any text turns on (C176_bool_refuted), so that --overwrite 0 loses the stored PSF (C176_store_refuted), and by configurations given as dictionaries (C176_dict_refuted). int() is modelled for texts in ASCII.
* **C177** (partial) Commands of the documentation and scripts are understood, and clients share GPUs evenly. Files: `Commands/Props.lean`. Method: argparse as a total function on words; induction over the words for the parse, the commands and parsers as tables, counting residues for the GPUs. Limits: Proved of argparse for all command lines, and of 38 of the 41 commands. Violated by the command of demo_psf/readme.md (an option the program lacks), by the last program of run_psf_approximation.sh (missing), by the grid of test_sersic_cannon.sh (missing) (C177_commands_refuted), by the command of approx/psf/readme.md, which fails after storing (C177_save_refuted), and by run_psf_test.sh, which leaves out six of its bands (C177_loop_refuted). Signs, exponents and blanks of numbers and words with = are not modelled.
* **C178** (partial) A stamp cut out of an image holds the pixels around the position. Files: `Slow/Cutout.lean`. Method: python slices and truncation over rational positions, arrays as lists of rows; arithmetic of floors. Limits: Violated: the function fails for every input, since it sets a read-only attribute (in pixels) or converts three coordinates with a header of two axes, or calls a method arrays lack (on the sky), and would return nothing (C178_extract_refuted). Of what it computes before that, size, weights and reference pixel are right; rows and columns are exchanged (C178_transposed_refuted), and boxes across the lower edge are empty (C178_edge_refuted). The keywords of the header are taken to be there, image and uncertainties to have the same shape.

## Testing the theorems

`seeded/LOG.jsonl` has one line per edit of a definition in a scratch copy of the
model: single-token edits made by a script (operators, comparisons, constants,
branches) and hand-made ones.  After each edit the depending modules were rebuilt.
How to read the log:

* Edits that do not type-check, and edits whose rebuild ran out of time, are not
  logged.
* `theorems_failed` lists what no longer compiled.  A failure can come from the
  proof script breaking although the statement would still hold; the log does not
  separate the two.
* When only helper lemmas failed, `claim_broken` is inferred from the directory of
  the definition, not established.
* Edits that no theorem noticed are listed with a note: either a theorem was
  tightened (`theorems_tightened`), or the edit does not change what the claims say
  (an equivalent program, a value no claim speaks about).  These notes are by
  argument, not by proof.

## Defects found in the code

With a theorem (`_refuted` or named):

* Checkout hands out sources that are held as fixed by another region (C03).
* Seed weights do not exclude checked-out sources: `~` on an integer column (C13).
* Linked regions can share active sources when a group is truncated (C15).
* The parent loop drops stragglers and logs results under the newest task (C20).
* `n_params` of the base source class, the parameter indices with a preceding fixed
  source, and the ids of catalogs made from scenes are wrong (C21, C23, C24).
* Unused proposal slots hold uninitialised memory (C25).
* The posterior cache keeps references to the caller's arrays (C27) and returns a
  stale value after the volume correction is switched (C69).
* The stacked gradient is longer than the vector for galaxies without free profile
  (C28).
* Reflection never ends for an interval of zero width (C32).
* A zero flux is outside its automatic bounds (C33); a zero flux with zero
  uncertainty gives an interval the check rejects (C34).
* Adjusting bounds clips with the lower bound twice (C35); the position-angle test
  has a sign error (C36).
* Pixel coordinates overflow beyond 32768 (C38); an integer mask without a bit mask
  is used as row numbers (C39); nested exposure names delete each other (C40).
* Ingesting a set twice subtracts the background twice (C70); a cached astrometric
  solution survives a new header (C71).
* Negative pixels are not capped (C44); the kernel ignores the source in the PSF
  offset and the static PSF array is over-allocated (C45); repacking a packed scene
  loses the reference coordinates (C46).
* Preparing a CPU patch twice subtracts twice; an empty fixed catalog raises (C47).
  A failed send leaves a dangling device patch (C48).
* GPU sums take in inactive lanes unless sizes are multiples of the warp (C52); the
  shared memory at launch holds at most 561 gaussians (C53).
* The shear jacobian does not exist for round sources (C54); flat polygons are
  misjudged (C55, C56); the outline of non-square images is wrong (C73); the box of
  a circle is too narrow off the equator (C74); exposures inside or crossed by a
  region are missed (C75); small circles select no pixel (C76).
* `--name=value` and abbreviated options are ignored; parser defaults override the
  file (C61); a store directory with an empty store file raises (C77).
* Fixed sources in the documented shape always raise in the flux optimiser (C62).
* The plain slow plan ignores fixed sources, zero fluxes give NaN gradients, PSF
  offsets in arcsec are mixed up, plans share settings (C64).  The multi-stamp
  gradient is wrong for the shear class, for uncovered and for fixed sources (C80).
  The simple PSF has the wrong width (C81).
* Padding overwrites the last pixel of an image; shapes leak between exposures (C65).
  An explicit list of patches gives a catalog of the wrong length (C66).  Missing
  precision matrices raise (C83).  Chains of sources in several patches come from
  other patches unless patches are logged in order (C84).
* Bounds that are all zero on one side are rejected (C86); a NaN sample is reported
  as the maximum (C87); an indefinite mass matrix is passed on (C88); the optimiser
  reports half the log-probability (C89); file names without a directory, text
  arrays, `None` values and scalars do not survive saving (C90).
* Combining chains always raises on the package's own catalogs (C91); weighted
  quantiles ignore the weight of the largest sample (C93).
* The first EM pass can lower the likelihood (C95); the least-squares branch raises,
  unsettled fits give no answer, stored parameters are overwritten by the next
  repeat, the greedy start adds what it should subtract (C96).
* The Kron radius with a limit lacks a factor (C99); the two-dimensional normal has
  the one-dimensional normalisation; the shear of the image model is ignored (C100).
* The log overwrites the catalog when the state file has no `.fits` (C101); the
  shipped work function raises on every task (C102); appending catalogs reads the
  wrong table when a name is missing (C103); the triangular kernel is not a
  covariance at its default scale (C104).
* The seed is dropped from its own linked region when another source is at the same
  place, and neighbours are ranked by distance over radii, not distance (C105).
  Regions crossing a FITS image are missed and patches from dictionaries raise
  (C106); the pixel corners tested are half a pixel off (C107).
* Mass matrices of patches that lack a band are silently dropped, and the matrix
  handed out for the next such fit has the wrong size (C108).
* The centre of the scene is the median right ascension, so a catalog across
  right ascension zero gets a centre on the other side of the sky and its
  neighbours appear a full turn apart; a second `ingest` on one superscene keeps
  the coordinates of the first catalog (C109).
* After `tasks.optimize` with linear optimisation the patch is left with the
  metadata and reference coordinates of the last source alone, so a result filled
  with the returned model has wrong positions (C111).
* Exposures without `ABMAG` are ingested as counts among exposures in nanojansky
  (C112).
* `use_gwcs` is ignored unless `load_all` is also set: coverage queries then use
  the header astrometry (C113).
* `DevicePatchMixin.render` never returns: it negates a list of arrays. Before that
  the kernel is called without sending the new metadata, which on a CPU leaves it
  with pointers to released arrays (C114).
* An exposure that occurs twice in a patch is read back from the residual file with
  the pixels and residuals of its first occurrence; the failed write is printed (C115).
* `residual_pdf` leaves out the last `npatch % n` patches; `write_patchreg` labels by
  the order of names as strings, so with eleven patches label 1 is patch 10, and the
  command line passes it a string (C116).
* `postop_catalog` lists the bands of patch 0 only, so bands that patch lacks are lost
  in the next run; `rectify_catalog` clips shapes to ranges narrower than the prior
  (half-light radii below 0.051); a raw catalog not named `.fits` is overwritten (C117).
* `chain_pdf` fails for patches with one band and for chains without tuning samples,
  which `run_lmc` discards by default (C118).
* `mark_sources` updates its default options in place (C119).
* `fit_profiles` and `initialize_splines` agree on the order of the table only for
  increasing grids: with a decreasing one amplitudes go silently to the wrong galaxies,
  and with a repeated value the table is not read, of which `Galaxy` only warns (C120).
* With circular regions a source whose `rhalf` times `nscale` reaches `maxradius` (2 arcsec
  with the defaults) is never active and `undone` stays true for ever (C121).
* `Posterior` tests `np.any(lower) and np.any(upper)`, so bounds with all lower limits zero are
  refused; `SlowPosterior` does not call the base constructor, so without `lnprior` every
  evaluation raises, `nll` always raises, and `residuals(array)` raises (C122).
* `StaticPatch(mask=...)` passes the mask as a data type; scenes with inactive sources overrun the
  arrays; `patch_to_stamps` uses an undefined name and overwrites `crpix` with `crval` (C123).
* `run_opt_bounded` replaces the caller's bounds by ±200 when the model has a transform;
  `run_dynesty` hands scene parameters to a function of sampling parameters (C124).
* `rectify_catalog` clips axis ratios to [0.2, 0.99] and angles to ±2, `make_bounds` gives bounds
  (0.4, 1) and ±0.6 π, so thin or turned sources start outside their prior; `do_parent` passes
  `bounds_kwargs={}`, so limits set in the configuration have no effect (C125).
* docs/inputs.rst asks for q = b/a and pa east of north, the code reads sqrt(b/a) and pa north of
  east; `rectify_jades` uses an undefined name, inverts the axis ratio and is a right angle off (the
  two cancel until q is clipped), and overestimates `rhalf`; `write_sourcereg` calls an undefined
  function and writes outside the run's directory; `cat_to_regions` passes radii as full axis
  lengths (C126).
* `FWCS.all_pix2world(x, y, origin)` raises, `origin=` as keyword is ignored (C127).
* `PSFStore.data` opens a new file object at each access and closes none (C128).
* The gradients of a rendered source are not numbers when its flux in the filter is zero, also for the flux itself, and
  those for the shears of a round galaxy never are (C129).
* Gradients are summed in single precision; on the CPU a sum of equal terms stops growing at 2^24 terms (C131).
* Regions are equivalent to sequential fits in the order of checkout, not in that of check-in: a region can be
  checked in with parameters fitted against a neighbour that another region has meanwhile changed (C132).
* If a checkout raises in the parent (for instance a source larger than the largest patch), the children are never told
  to stop; and with the work function in use, which always raises, every parallel run gets stuck (C133).
* For strongly elongated gaussians the exponent computed in single precision can be wrong by a third
  (C135_elongated_refuted); the same source compiled with and without fused products gives different
  numbers (C135_fused).
* `combined_rhalf` gives different radii for the same image depending on how the sort orders pixels at equal distance,
  which numpy's default sort leaves open, and it replaces the PSF of the caller's stamp by a unit gaussian (C137).
* In single precision the shape of a very elongated source is wrong without notice: for an axis ratio of 1/4096 on
  square pixels turned by 45 degrees the exponent is three times what it should be (C138_elongated_refuted).
* `run_pymc3` raises with its own default bounds, ignores the starting position it records, applies the box to (and
  returns) sampling instead of scene parameters, and mislabels columns when a source of the scene is fixed (C139).
- `Patch.pack_meta` cannot pack a scene with a fixed source: the arrays are allocated for the free sources and
  filled for all, which raises `IndexError` after all source positions have been moved (C142).
- `Patch._pack_fluxcal` is never given a header key, so flux calibration tweaks have no effect (C142).
- `write_to_disk` drops the configuration silently whenever it holds a data type or a list, as all rectified
  configurations of the main parser do; a configuration saved by the scripts cannot be read again by
  `read_config` because a data type is stored as its printed name (C143).
- The `pix_dtype` and `meta_dtype` options of a patch only work as float32: the kernels read the halves of each
  double as two pixels without complaint (C147_double_refuted).
- `band_start` and `band_N` are 16 bit, so 32768 exposures wrap to a negative index silently
  (C147_exposures_refuted).
- A GPU patch without `return_residual` has a null residual pointer; the kernels then write no residual
  (C147_no_residual).
- `kernel_limits.py` reads a number with a leading zero as decimal where the compiler reads octal
  (C148_octal_refuted), sees definitions inside block comments and misses `# define` (C148_shape_refuted), and cannot be
  imported once a definition has a comment behind it, a suffix, or two blanks behind an empty one
  (C148_comment, C148_raises).
- `JadesPatch`, `SimplePatch` and all classes of the examples write the storage class before the
  device mixin, so `free()` is the empty method of `PatchBase` and not the one of `GPUPatchMixin`: the
  worker's `patcher.free()` (dispatcher.py:298) and `__del__` release no device memory; it is
  released only when the handles are destroyed (C149_free_refuted, C149_destroy).
- `corner.twodhist` never returns when no sample lies in the span given (C150_hang_refuted), may hand
  equal levels to matplotlib (C150_increasing_refuted), and raises for a smoothing between one and two
  (C150_bins).  A negative smoothing is reported as samples without dynamic range, a smoothing of zero
  raises `OverflowError` (C150_smoothings).
- `psf_mixture` cuts a section that is half a pixel (odd sizes) or a pixel (even sizes) below the
  centre (C151_centre_refuted), and for an image that is not square applies the offset of the rows to
  x and that of the columns to y (C151_position_refuted).
- `corner.show_extras` draws true values of a parameter over the histograms of later parameters and in
  none of the panels for two parameters (C152_truths_refuted); `prettify_axes` raises without the
  labels it documents as optional, `marginal` for a peak without weights (C152_labels_refuted,
  C152_peak_refuted).
- Documentation: inputs.rst describes masks with 1 for good pixels, while `add_exposure` drops the pixels
  with 1 (C153_mask_refuted); output.md plots one sample of all sources as the trace of a source
  (C153_trace_refuted); the loop of usage.md writes all rounds to the same file and logs all of them as
  patch 0 (C153_loop_refuted, C153_catalog_refuted).
- Not-a-number: a flux that is not a number gives an ordinary chi-square if every pixel is where the source
  is cut off (C154_silent_refuted), and a source at an infinite position is ignored in half of the plane
  (C154_far).
- Demonstrations: `demo_pair` separates sources in units of the second radius and not the first
  (C155_separation_refuted) and ignores the fluxes, axis ratios and angles asked for
  (C155_options_refuted); PSFs of several gaussians have as much flux as gaussians (C155_psf_refuted);
  `mosaic_make_dithers` cannot write its files (C155_dithers_refuted), a mosaic has no filter
  (C155_mosaic_refuted) and is not a number where one dither is missing (C155_edges_refuted);
  `color_fit` looks for filters in the empty primary header (C155_color_refuted); `psf_one_fit` fails
  without `--snr` (C155_tag_refuted); the region of a fit misses high images (C155_region_refuted).
- Pixels: the correction of second order makes the counts of a source of positive flux negative in the
  pixel at its centre when its gaussian is narrower than 0.29 pixels (C156_narrow_refuted).
- Mixtures: the smoothness penalty of the fit to Sersic profiles punishes equal amplitudes, because the
  matrix of differences takes zeros on both sides, and it depends on the unit of brightness
  (C157_roughness_refuted); the fit with free radii always raises (C157_free_refuted).
- Verification: `validate` and `display` of `verify_reference.py` always stop at the unbound names `patcher`
  and `residual`, and `make_reference.py` at `band` (C158_names_refuted).
- Imports: `forcepho/dispatcher.py:21` imports `read_config` from `forcepho.utils`, which does not have it, so
  `python -m forcepho.dispatcher` (scripts/launch_parallel_hetjob.sh, scripts/client_shim.sh) fails in every
  installation (C159_dispatcher_refuted); so do `tests/verification/verify_reference.py` and most of the slow
  tests (C159_scripts_refuted); `from forcepho.postprocess import *` fails on `make_errorbars`
  (C159_exports_refuted).
- Validation with galsim: `make_all_tags` of test_sersic reads `config.fwhm`, the PSF width of the last point of
  the grid, so with the shipped grids (widths 1 and 2) half of the rows are filled with the chain of another point
  (C160_width_refuted); points that round to the same tag share one fit (C160_collision_refuted); in test_psf an
  image without its fit is skipped for ever (C160_restart_refuted); `--flux` does nothing (C160_flux_refuted);
  source i is put at i times its own radius, so sources can coincide (C160_separation_refuted); `make_psfstore`
  gives every gaussian the amplitude one (C160_psf_refuted); `*.yaml` grids are never read (C160_yaml_refuted);
  `compare_apflux` is called with the unknown keyword `bands` (C160_figure_refuted); `ensemble_chains.fits` is
  written without `overwrite`, so a second run writes its grid, then raises and leaves the summary of the first
  (C160_rerun_refuted).
- Mixture fits: the best parameters lack what was fixed, so `psf_prediction(**best)` has amplitude one
  (C161_amplitude_refuted) and `sersic_prediction(**best)` amplitude one about the origin
  (C161_sersic_amplitude_refuted, C161_sersic_centre_refuted); with negative gaussians the call raises
  (C161_negative_refuted); `make_psf.py --ngauss 1` never works (C161_single_refuted); `draw_ellipses` swaps the axes
  of every gaussian (C161_ellipse_refuted); `ee_plot(renormalize=True)` divides the model by the flux of the image
  (C161_growth_refuted); `python -m forcepho.mixtures.psf_mix_hmc` raises on `sy` (C161_demo_refuted); a shear can not be fitted
  because of the undefined `maxg` (C161_sersic_fails).
- Figures of the demonstrations: `pair_movie.py` pairs the residual of draw `i*thin` with the mark of draw
  `n_tune + i*thin` (C162_movie_refuted); the first draw is drawn as the truth (C162_truth_refuted); `single_plot.py` drops
  the warm-up of the last file from all (C162_warmup_refuted), and fails for a single file (C162_second);
  `color_plot_separate.py` fails for one source (C162_separate); `mosaic_plot.py` mixes the draws of two sources when told of
  one (C162_rows_refuted); trace titles use the digits of a number near one (C162_text_refuted); `Residuals.show` leaves the
  residuals out of its colour scale when a pixel is masked (C162_scale_refuted).
- Files of the demonstrations: `demo_psf/psf_grid_fit.py` never gets past its imports (C159_grid_refuted); the commands of
  demo_color/readme.md do not make the chains that `color_plot_separate.py` reads (C163_color_refuted); residuals of a chain
  in a path with "samples" in it are looked for elsewhere (C163_residuals_refuted), as are drizzled dithers with "dither"
  (C163_drizzle_refuted); `pair_make.py --outname pair.fits` fails (C163_pair_refuted); `basic_plot.py` writes to `/` for a
  chain in the current directory (C163_basic_refuted).
- Names that do not exist: `default_config_file`, `sersic_model`, `patch_to_stamps`, `check_multipatch`, `write_sourcereg`,
  `rectify_jades`, `test_astrometry` and the figures of three demonstrations name things their modules never have
  (C164_names_refuted).
- Figures: `show_exp` without axes, its default, never returns, in both modules that have it; with fractional coordinates it can
  index outside its image; the radial plot compares residuals times radius with 1% of the maximum (C165_axes_refuted,
  C165_fraction_refuted, C165_radial_refuted, C165_limits_refuted).
- Saving a PSF fit with `--fitsout` under a name without ".h5" overwrites the HDF5 file with the FITS file
  (C166_save_refuted); the header of that file says filter F090W for every band (C166_filter_refuted).
- Calls that cannot succeed: `create_ans(res.x)` in `fit_mvn_mix` for `method_opt="scipy_ls"`, `psf_prediction(..., sy=3)` in
  psf_mix_hmc.py, `compare_apflux(..., bands=...)` in test_sersic_mixture.py (C167_calls_refuted).
- `compare_parameters(..., point_type="map")` fails when the most probable sample is outside the 16th to 84th percentile, and by default
  the figure leaves out all but the largest split value (C168_map_refuted, C168_onlymax_refuted).
- `postsample_catalog` slices all patches with the number of samples of the first: with none it fails (`x[-0:]` is the whole chain), and
  a patch with fewer has warm-up draws stored as samples without an error (C169_empty_refuted, C169_warmup_refuted).
- The scene demonstration draws regions as circles in right ascension and declination, which leave out active sources off the equator
  (C170_circle_refuted), and turns missing fluxes into fluxes of 1e-5 (C170_flux_refuted).
- The colour bar beside the ellipses of a PSF fit has another scale than the ellipses (C171_colour_refuted); the `model` of the files of
  Sersic mixtures has another scale than the `amplitudes` (C172_model_refuted).
- The binning function of the test of undersampling cannot repeat pixels, although it has a branch for it (C173_rebin_refuted).
- Identifiers of more than 32 bits wrap around silently (C174_ids_refuted); the catalog of a scene has positions in single precision, which
  moves sources by up to 0.08 arcsec (C174_scene_refuted).
- The reference test swaps the axes of stored exposures that are not square (C175_shape_refuted); the script that makes the data passes the
  number of exposures as the bands, and fails; with more than six bands there is no pixel scale (C175_make_refuted).
- `--overwrite 0` of the PSF scripts overwrites, since any text is true (C176_bool_refuted, C176_store_refuted); `yaml_to_namespace` fails for
  every dictionary, which its documentation allows (C176_dict_refuted).
- `demo/demo_psf/readme.md` gives `--psfimage`, which the program does not know; `run_psf_approximation.sh` ends with a program, `test_sersic_cannon.sh`
  names a grid, that do not exist (C177_commands_refuted); the command of `approx/psf/readme.md` fails after storing the mixture, since the pixel scale
  is `None` (C177_save_refuted); `run_psf_test.sh` never fits the first six of its fourteen bands (C177_loop_refuted).
- `extract_stamp` fails for every input, having set a read-only attribute; the pixels it takes are those of the transposed box, and none for a box
  across the lower edge (C178_extract_refuted, C178_transposed_refuted, C178_edge_refuted).

Seen while reading, without a theorem:

* `dispatcher.py`: (its import of `read_config` is C159) `MPI` is undefined in `do_child` when imported.
* `config.py` `default_config_file` calls `yaml.dumps`, which does not exist, and uses
  undefined names; `yaml_to_namespace` hands a dictionary to the YAML parser.
* `tasks.optimize` raises `TypeError` on a singular band.
* `patch.py:392` calls `get_local_psf` without a solution, so entry 0 of every PSF
  table is used.
* `MetaStore()` without a file has no `wcs`; `use_gwcs` without `load_all` never uses
  gwcs.
* `StaticPatch.__init__` passes the mask as dtype; `patch_to_stamps` overwrites
  `crpix` with `crval` and uses an undefined class; `device_patch.render` cannot work.
* `fitting.warmup_rounds` raises `NotImplementedError`.
* `postprocess.check_multipatch`, `write_sourcereg` and `utils.catalog.rectify_jades`
  use undefined names; `Residuals.show` plots data times error as chi;
  `postop_catalog` takes the first FITS file of an unordered listing.
* `stamp.extract_stamp` returns nothing and sets a read-only attribute.
* `sersic_mix_oned.chisq` with `radii=None` slices with a float; `sersic_mix_twod`
  uses an undefined `maxg`; `free_sersic_prediction` raises `NotImplementedError`;
  `utils_hmc.infer` too for any sampler but HMC.
* `approx/psf/make_psf.py` reads a key (`sy`) the current mixture model no longer
  produces; `package_output` without overwrite leaves `bg` undefined.

## Axioms of each theorem

Produced with `#print axioms` on every theorem named in `MANIFEST.json`
(prefix `Forcepho.` left out).

* no axioms (3): Chain.C60_zero, Demo.Figures.C162_labels, Dispatcher.Child.C102_dummy_refuted
* `propext` (33): Catalog.C103_empty, Commands.C177_declared, Commands.C177_loop_refuted, Config.C144_collect, Config.C61_null, Config.C61_witness, Config.C77_store_none, Config.Switches.C176_bool_refuted, Demo.Figures.C162_movie_thin, Demo.Figures.C162_second, Dispatcher.Child.C102_exception, Fitting.Pymc.C139_default_refuted, Fitting.Pymc.C139_start_refuted, Galsim.C160_run, Layout.C147_declarations, Layout.C147_pointees, Patch.C45_refuted, Patch.C45_static_refuted, Posterior.C27_refuted, Posterior.C27_refuted_gradient, Posterior.C69_refuted, Posterior.Init.C122_residuals_refuted, Posterior.Init.C122_slow_refuted, Posterior.Stack.C28_refuted_fixed_profile, Postprocess.Reports.C119_leak_refuted, Slow.Cutout.C178_assigned, Sources.C23_default_raises, Sources.C23_refuted, Sources.C24_refuted_id, Sources.C25_refuted_zero, Storage.C72_layout, SuperScene.C12_reset, SuperScene.Disk.C101_directory_refuted
* `Quot.sound`, `propext` (116): Bounds.C35_bounds_partial, Bounds.C35_errors, Bounds.C36_options, Bounds.C36_same_axis, Calls.C167_bind, Calls.C167_calls_partial, Catalog.C103_primary_refuted, Catalog.C103_write, Chain.C59_out_of_range, Chain.C59_sample, Chain.C60_addresses, Chain.C60_roundtrip, Chain.Stats.C169_empty_refuted, Chain.Stats.C169_table, Commands.C177_channel, Commands.C177_gpu, Commands.C177_gpus_alone, Commands.C177_loop, Config.C143_back, Config.C143_roundtrip_partial, Config.C144_lines_partial, Config.C61_merge, Config.C61_read_config, Config.C77_store, Config.Switches.C176_dict_refuted, Config.Switches.C176_flag, Config.Switches.C176_store, Contour.C150_hang_refuted, Contour.C150_levels_partial, Corner.C152_labels_refuted, Corner.C152_peak_refuted, Demo.C155_color, Demo.C155_color_refuted, Demo.Figures.C162_legend, Demo.Flow.C163_pair_partial, Demo.Flow.C163_pair_refuted, Demo.Scene.C170_flux_refuted, Demo.Scene.C170_numbers, Device.Classes.C149_clear, Device.Classes.C149_methods, Device.Classes.C149_size, Dispatcher.C20_refuted_taskid, Dispatcher.Child.C102_answer, Dispatcher.Serial.C132_not_arrival_order, Docs.C153_sourcelog, Fitting.C111_linear_refuted, Fitting.C111_optimize_partial, Fitting.C111_sample, Fitting.Pymc.C139_duplicate, Fitting.Pymc.C139_fixed_refuted, Galsim.C160_catalog, Galsim.C160_figure_refuted, Galsim.C160_first, Galsim.C160_restart_refuted, Kernel.C53_shared_refuted, Layout.C147_sizeof, Limits.C148_block, Linked.C68_linked_region, Patch.C142_empty, Patch.C142_new, Patch.C142_restore, Patch.C42_residuals, Patch.C43_fits, Patch.C43_static, Patch.C44_off, Patch.C45_succeeds, Patch.C46_positions, Patch.C46_reference, Patch.C46_roundtrip, Patch.Static.C123_no_sources, Posterior.C26_C27_partial, Posterior.C26_sentinel, Posterior.C26_transparent, Posterior.Init.C122_exclusive, Posterior.Init.C122_fast_flat, Posterior.Init.C122_fast_nll, Posterior.Init.C122_fast_prior, Posterior.Init.C122_residuals_partial, Posterior.Init.C122_residuals_zero_refuted, Posterior.Init.C122_slow_partial, Posterior.Init.C122_transform, Postprocess.Reports.C118_one_band_refuted, Postprocess.Reports.C119_independent_partial, Postprocess.Reports.C119_options, Psfdata.Output.C166_combine, Quantile.C91_refuted, Region.C106_direct, Region.C106_listed, Region.C107_all, Region.C75_listed, Slow.Fixture.C175_shape_refuted, Sources.C24_conformal_error, Sources.C24_other_classes, Storage.C113_gwcs_refuted, Storage.C113_load_all_partial, Storage.C38_sizes, Storage.C39_integer_mask_fails, Storage.C39_integer_mask_image, Storage.C39_refuted_integer_mask, Storage.C40_below_dataset, Storage.C40_json, Storage.C40_metadata, Storage.C40_refuted_nested, Storage.C71_refuted, SuperScene.C03_refuted_shared, SuperScene.C03_refuted_valid, SuperScene.C04_failed_checkout, SuperScene.C05_checkin_bounds_covs, SuperScene.C05_checkin_out_of_range, SuperScene.C08_sizes, SuperScene.C11_done_iff, SuperScene.Disk.C101_overwrite_refuted, Verification.C158_error, Verification.C158_names_partial, Verification.C158_names_refuted, Wcs.C128_psf_refuted
* `Classical.choice`, `Quot.sound`, `propext` (894): Bounds.C125_config_partial, Bounds.C125_configured_refuted, Bounds.C125_default_partial, Bounds.C125_limits, Bounds.C125_position, Bounds.C125_refuted, Bounds.C125_wide, Bounds.C33_all_zero, Bounds.C33_allow_sign, Bounds.C33_contain, Bounds.C33_prec_contain, Bounds.C33_prec_width, Bounds.C33_refuted_zero, Bounds.C33_widen, Bounds.C33_zero_upper, Bounds.C34_check, Bounds.C34_degenerate, Bounds.C34_flux, Bounds.C34_made_pass, Bounds.C34_ok_iff, Bounds.C34_shape, Bounds.C34_vectors, Bounds.C35_refuted, Bounds.C36_in_range_partial, Bounds.C36_refuted, Bounds.C36_refuted_odd, Bounds.C36_rotate, Bounds.C37_copies, Bounds.C37_fails, Bounds.C37_idempotent, Bounds.C37_in_range, Bounds.C37_rotated, Calls.C167_calls_refuted, Catalog.C103_append_partial, Catalog.C103_names, Catalog.C103_shift_refuted, Catalog.Columns.C174_float_ids_partial, Catalog.Columns.C174_ids_partial, Catalog.Columns.C174_ids_refuted, Catalog.Columns.C174_position, Catalog.Columns.C174_scene_partial, Catalog.Columns.C174_scene_refuted, Chain.C59_accepts, Chain.C59_cells, Chain.C59_roundtrip, Chain.C59_scene, Chain.Stats.C169_counts, Chain.Stats.C169_samples_partial, Chain.Stats.C169_stored, Chain.Stats.C169_warmup_refuted, Commands.C177_channel_scales, Commands.C177_commands_partial, Commands.C177_commands_refuted, Commands.C177_float, Commands.C177_given, Commands.C177_gpus_even, Commands.C177_int, Commands.C177_option, Commands.C177_parse, Commands.C177_refusals, Commands.C177_resolve, Commands.C177_resolve_refused, Commands.C177_save, Commands.C177_save_refuted, Commands.C177_scales, Commands.C177_start, Commands.C177_text, Commands.C177_yml, Config.C143_dtype_refuted, Config.C143_dumps, Config.C143_encoder, Config.C143_lost, Config.C143_witness, Config.C143_written, Config.C144_refuted, Config.C144_witness, Config.C61_precedence_partial, Config.C61_refuted, Config.C77_directory, Config.C77_values, Config.Switches.C176_int, Config.Switches.C176_int_texts, Config.Switches.C176_store_refuted, Contour.C150_bins, Contour.C150_ends, Contour.C150_fill, Contour.C150_increasing_refuted, Contour.C150_monotone, Contour.C150_padding, Contour.C150_positions, Contour.C150_share, Contour.C150_smoothings, Corner.C152_inside, Corner.C152_labels, Corner.C152_marks, Corner.C152_panels, Corner.C152_peak, Corner.C152_points, Corner.C152_truths_refuted, Demo.C155_deep, Demo.C155_dither, Demo.C155_dithers_partial, Demo.C155_dithers_refuted, Demo.C155_edges_refuted, Demo.C155_files, Demo.C155_frame, Demo.C155_mean, Demo.C155_mosaic, Demo.C155_mosaic_refuted, Demo.C155_noise, Demo.C155_options_refuted, Demo.C155_pair, Demo.C155_place, Demo.C155_psf, Demo.C155_psf_refuted, Demo.C155_region, Demo.C155_region_refuted, Demo.C155_region_witness, Demo.C155_scene, Demo.C155_separation_refuted, Demo.C155_shape, Demo.C155_tag_refuted, Demo.Figures.C162_aperture, Demo.Figures.C162_color, Demo.Figures.C162_movie, Demo.Figures.C162_movie_partial, Demo.Figures.C162_movie_refuted, Demo.Figures.C162_rows, Demo.Figures.C162_rows_refuted, Demo.Figures.C162_scale_masked, Demo.Figures.C162_scale_partial, Demo.Figures.C162_scale_refuted, Demo.Figures.C162_separate, Demo.Figures.C162_span, Demo.Figures.C162_text, Demo.Figures.C162_text_refuted, Demo.Figures.C162_total, Demo.Figures.C162_truth, Demo.Figures.C162_truth_refuted, Demo.Figures.C162_warmup, Demo.Figures.C162_warmup_refuted, Demo.Flow.C163_basic_partial, Demo.Flow.C163_basic_refuted, Demo.Flow.C163_basic_root, Demo.Flow.C163_basic_tag, Demo.Flow.C163_color_order, Demo.Flow.C163_color_partial, Demo.Flow.C163_color_refuted, Demo.Flow.C163_combine, Demo.Flow.C163_drizzle_partial, Demo.Flow.C163_drizzle_refuted, Demo.Flow.C163_files, Demo.Flow.C163_mosaic, Demo.Flow.C163_mosaic_names, Demo.Flow.C163_mosaic_out, Demo.Flow.C163_pair_root, Demo.Flow.C163_residuals_partial, Demo.Flow.C163_residuals_refuted, Demo.Flow.C163_snr, Demo.Flow.C163_snr_names, Demo.Flow.C163_snr_refuted, Demo.Scene.C170_catalog, Demo.Scene.C170_circle_partial, Demo.Scene.C170_circle_refuted, Demo.Scene.C170_colours, Device.C114_cpu, Device.C114_failures, Device.C114_gpu, Device.C114_negate, Device.C114_render_cpu, Device.C114_render_gpu, Device.C114_render_refuted, Device.C47_blocks_add, Device.C47_cpu, Device.C47_cpu_twice, Device.C47_degenerate, Device.C47_gpu, Device.C47_gpu_dirty, Device.C47_gpu_twice, Device.C47_image, Device.C47_no_active, Device.C47_retrieve, Device.C48_at_most_once, Device.C48_explicit_partial, Device.C48_failed_send, Device.C48_final_free_partial, Device.C48_no_invalid_access, Device.C48_resend_unfreed, Device.Classes.C149_compose, Device.Classes.C149_destroy, Device.Classes.C149_free_empty, Device.Classes.C149_free_partial, Device.Classes.C149_free_refuted, Device.Classes.C149_order, Dispatcher.C17_workers, Dispatcher.C18_tasks, Dispatcher.C19_closeout, Dispatcher.C19_collect, Dispatcher.C19_submit, Dispatcher.C20_one_worker, Dispatcher.C20_partial, Dispatcher.C20_refuted_straggler, Dispatcher.C20_wait, Dispatcher.Child.C102_answers_partial, Dispatcher.Net.C133_no_deadlock, Dispatcher.Net.C133_order, Dispatcher.Net.C133_progress, Dispatcher.Net.C133_refuted_dummy, Dispatcher.Net.C133_refuted_exception, Dispatcher.Net.C133_shutdown, Dispatcher.Serial.C132_arrival, Dispatcher.Serial.C132_parent, Dispatcher.Serial.C132_serial, Dispatcher.System.C134_children, Dispatcher.System.C134_single, Docs.C153_catalog_refuted, Docs.C153_loop_refuted, Docs.C153_mask_refuted, Docs.C153_numbered, Docs.C153_trace_refuted, Em.C94_density, Em.C94_image_moments, Em.C94_iterates, Em.C94_moments, Em.C94_single, Em.C94_step, Em.C95_first_pass_refuted, Em.C95_likelihood, Em.C95_monotone_partial, Em.C95_single_best, Em.C95_step, Em.C96_alias_refuted, Em.C96_answer, Em.C96_best, Em.C96_converged_partial, Em.C96_em, Em.C96_greedy_refuted, Em.C96_scipy_refuted, Em.C96_unsettled_refuted, Em.Ellipses.C171_colour_refuted, Em.Ellipses.C171_ellipse, Em.Ellipses.C171_panels, Fit.C136_answers, Fit.C136_chain, Fit.C136_gradient, Fit.C136_history, Fit.C136_value, Fit.C136_witness, Fitting.C108_covs, Fitting.C108_missing_band_refuted, Fitting.C108_scene, Fitting.C124_bounded_partial, Fitting.C124_bounds_refuted, Fitting.C124_dynesty_partial, Fitting.C124_dynesty_refuted, Fitting.C124_prior, Fitting.C86_final, Fitting.C86_linear, Fitting.C86_rejected, Fitting.C86_samples, Fitting.C86_start, Fitting.C87_map_partial, Fitting.C87_nan_refuted, Fitting.C87_structured_partial, Fitting.C88_lower, Fitting.C88_mass_partial, Fitting.C88_refuted, Fitting.C88_repair, Fitting.C88_weight, Fitting.C89_lnp_refuted, Fitting.C89_point_partial, Fitting.Pymc.C139_gradient, Fitting.Pymc.C139_names, Fitting.Pymc.C139_run, Fitting.Pymc.C139_scene, Fitting.Pymc.C139_transform_refuted, Fitting.Pymc.C139_witness, Float.C130_offset, Float.C130_pixels, Float.C130_position, Float.C130_rounding, Float.C130_roundtrip, Float.C130_roundtrip_refuted, Float.C130_unzeroed_refuted, Float.C130_witness, Float.C131_agree, Float.C131_large_refuted, Float.C131_runs, Float.C131_stagnation, Float.C135_chi2, Float.C135_elongated_refuted, Float.C135_fused, Float.C135_general, Float.C135_residual, Float.C135_value, Float.C135_witness, Float.C138_amplitude, Float.C138_elongated_refuted, Float.C138_fused, Float.C138_pixel, Float.C138_residual, Float.C138_shape, Float.C138_square_pixels, Float.C138_width, Float.C138_witness, Float.C140_center, Float.C140_chi2, Float.C140_pixel, Float.C140_residual, Float.C140_witness, Float.C141_band, Float.C141_band_gpu, Float.C141_source, Float.C141_term, Float.C141_witness, Float.C145_angle, Float.C145_axis, Float.C145_centre, Float.C145_flux, Float.C145_size, Float.C145_weight, Float.C145_witness, Float.C146_band, Float.C146_band_gpu, Float.C146_gradient, Float.C146_source, Float.C146_witness, Float.Special.C154_amplitude, Float.Special.C154_axis, Float.Special.C154_chi2, Float.Special.C154_data, Float.Special.C154_far, Float.Special.C154_far_witness, Float.Special.C154_finite, Float.Special.C154_finite_witness, Float.Special.C154_flux, Float.Special.C154_masked, Float.Special.C154_operations, Float.Special.C154_range, Float.Special.C154_rounding, Float.Special.C154_same, Float.Special.C154_same_witness, Float.Special.C154_shape, Float.Special.C154_silent_refuted, Float.Special.C154_source, Float.Special.C154_value, Fluxes.C62_bands, Fluxes.C62_bounds, Fluxes.C62_chi2, Fluxes.C62_fixed_refuted, Fluxes.C62_minimum, Fluxes.C62_solvable, Fluxes.C62_witness, Fluxes.C78_design, Galsim.C160_aperture, Galsim.C160_bands, Galsim.C160_collision_refuted, Galsim.C160_flux_refuted, Galsim.C160_grid, Galsim.C160_noise, Galsim.C160_position, Galsim.C160_psf_partial, Galsim.C160_psf_refuted, Galsim.C160_reader, Galsim.C160_rerun_refuted, Galsim.C160_run_partial, Galsim.C160_run_restart, Galsim.C160_scene, Galsim.C160_separation_partial, Galsim.C160_separation_refuted, Galsim.C160_shape, Galsim.C160_size, Galsim.C160_summary_partial, Galsim.C160_tag, Galsim.C160_text, Galsim.C160_width_partial, Galsim.C160_width_refuted, Galsim.C160_yaml_refuted, Galsim.Compare.C168_jitter, Galsim.Compare.C168_map, Galsim.Compare.C168_map_refuted, Galsim.Compare.C168_onlymax_refuted, Galsim.Compare.C168_points, Imports.C159_demos_partial, Imports.C159_dispatcher_refuted, Imports.C159_exports_partial, Imports.C159_exports_refuted, Imports.C159_grid_refuted, Imports.C159_imports_partial, Imports.C159_needs, Imports.C159_optional, Imports.C159_scripts_refuted, Imports.C159_session, Imports.C159_statements, Imports.C164_bare, Imports.C164_bound, Imports.C164_names_partial, Imports.C164_names_refuted, Kernel.C156_blur, Kernel.C156_common, Kernel.C156_image, Kernel.C156_narrow, Kernel.C156_narrow_refuted, Kernel.C156_pixel, Kernel.C156_point, Kernel.C156_sky, Kernel.C43_inert, Kernel.C47_kernel_blocks, Kernel.C47_kernel_sum, Kernel.C49_gaussian, Kernel.C49_layout, Kernel.C49_matrix, Kernel.C49_positive_definite, Kernel.C49_total_flux, Kernel.C50_chi2, Kernel.C50_gradient_dec, Kernel.C50_gradient_flux, Kernel.C50_gradient_pa, Kernel.C50_gradient_q, Kernel.C50_gradient_ra, Kernel.C50_gradient_rh, Kernel.C50_gradient_sersic, Kernel.C51_one_pixel, Kernel.C51_zero_weight, Kernel.C52_accumulate, Kernel.C52_accumulator, Kernel.C52_agree_partial, Kernel.C52_gaussians, Kernel.C52_run_exists, Kernel.C52_unpadded_refuted, Kernel.C52_visits, Kernel.C52_warp, Kernel.C53_beyond, Kernel.C53_rows, Kernel.C53_shared, Kernel.C53_writes, Layout.C147_abi, Layout.C147_chi2, Layout.C147_derivative, Layout.C147_derivative_cpu, Layout.C147_double_refuted, Layout.C147_exposures_refuted, Layout.C147_layout, Layout.C147_metadata_partial, Layout.C147_no_residual, Layout.C147_pixels_partial, Layout.C147_proposal, Layout.C147_residual_partial, Layout.C147_retrieve_partial, Layout.C147_send, Layout.C147_witness, Limits.C148_agree_partial, Limits.C148_comment, Limits.C148_header, Limits.C148_import, Limits.C148_line, Limits.C148_literal, Limits.C148_number, Limits.C148_octal_refuted, Limits.C148_raises, Limits.C148_shape_refuted, Limits.C148_special, Limits.C148_underscore, Limits.C148_witness, Linked.C105_distance_refuted, Linked.C105_fixed, Linked.C105_order, Linked.C105_seed_partial, Linked.C105_seed_refuted, Linked.C121_linked_finish_partial, Linked.C121_linked_turn_partial, Linked.C14_grow, Linked.C14_grow_overlap, Linked.C15_partial, Linked.C15_refuted, Linked.C15_refuted_strict, Linked.C16_groups, Multi.C80_fixed_refuted, Multi.C80_fixed_source_refuted, Multi.C80_gradient_partial, Multi.C80_negative, Multi.C80_numbers, Multi.C80_plans, Multi.C80_shear_refuted, Multi.C80_slow_partial, Multi.C80_witness, Patch.C142_fixed, Patch.C142_fluxcal, Patch.C142_pack_partial, Patch.C142_refuted, Patch.C41_bandPixels, Patch.C41_bands, Patch.C41_exposures, Patch.C41_succeeds_iff, Patch.C42_reshape, Patch.C42_splitBand, Patch.C42_splitPix, Patch.C43_staticPack, Patch.C44_cap_partial, Patch.C44_order, Patch.C44_refuted, Patch.C45_blocks, Patch.C45_component, Patch.C45_first, Patch.C45_kernel_partial, Patch.C45_static, Patch.C46_central, Patch.C46_refuted, Patch.C46_repack, Patch.Static.C123_bands, Patch.Static.C123_build, Patch.Static.C123_build_refuted, Patch.Static.C123_built, Patch.Static.C123_crpix_refuted, Patch.Static.C123_psf, Patch.Static.C123_psfgauss, Patch.Static.C123_stamps_partial, Patch.Static.C123_stamps_refuted, Patch.Static.C123_unordered, Posterior.C110_limit, Posterior.C110_quadratic, Posterior.C110_values, Posterior.C26_ncall, Posterior.C69_switch_partial, Posterior.Init.C122_bounds_partial, Posterior.Init.C122_incomplete, Posterior.Init.C122_sound, Posterior.Init.C122_zero_refuted, Posterior.Stack.C28_layout, Posterior.Stack.C28_matches_scene, Postprocess.C65_cutout, Postprocess.C65_default_shape, Postprocess.C65_exact_partial, Postprocess.C65_padding, Postprocess.C65_refuted, Postprocess.C65_shape, Postprocess.C65_shape_refuted, Postprocess.C65_shared, Postprocess.C65_succeeds, Postprocess.C65_written, Postprocess.C66_explicit_refuted, Postprocess.C66_rows, Postprocess.C66_succeeds, Postprocess.C82_images, Postprocess.C83_default, Postprocess.C83_missing_refuted, Postprocess.C83_sigma, Postprocess.C83_snr, Postprocess.C83_succeeds, Postprocess.C83_unknown, Postprocess.C83_unlisted, Postprocess.C84_ordered_partial, Postprocess.C84_refuted, Postprocess.C84_returned, Postprocess.HalfLight.C137_chain, Postprocess.HalfLight.C137_filter, Postprocess.HalfLight.C137_half, Postprocess.HalfLight.C137_image, Postprocess.HalfLight.C137_invariant, Postprocess.HalfLight.C137_order, Postprocess.HalfLight.C137_order_refuted, Postprocess.HalfLight.C137_witness, Postprocess.Postop.C117_bands, Postprocess.Postop.C117_bands_refuted, Postprocess.Postop.C117_listing_refuted, Postprocess.Postop.C117_name_partial, Postprocess.Postop.C117_name_refuted, Postprocess.Postop.C117_next_partial, Postprocess.Postop.C117_shape_refuted, Postprocess.Postop.C117_written, Postprocess.Reports.C116_all_partial, Postprocess.Reports.C116_all_refuted, Postprocess.Reports.C116_labels_partial, Postprocess.Reports.C116_labels_refuted, Postprocess.Reports.C116_pages, Postprocess.Reports.C116_regions, Postprocess.Reports.C116_string_refuted, Postprocess.Reports.C118_no_tuning_refuted, Postprocess.Reports.C118_pages_partial, Postprocess.Reports.C118_panels, Postprocess.Saved.C115_cutout_partial, Postprocess.Saved.C115_files, Postprocess.Saved.C115_first, Postprocess.Saved.C115_roundtrip_partial, Postprocess.Saved.C115_twice_refuted, Postprocess.Shown.C165_axes_refuted, Postprocess.Shown.C165_exposure_partial, Postprocess.Shown.C165_fraction_refuted, Postprocess.Shown.C165_limits_partial, Postprocess.Shown.C165_limits_refuted, Postprocess.Shown.C165_mixture_partial, Postprocess.Shown.C165_percent, Postprocess.Shown.C165_radial_partial, Postprocess.Shown.C165_radial_refuted, Priors.C63_accepts, Priors.C63_barrier, Priors.C63_cauchy_distribution, Priors.C63_cauchy_interval, Priors.C63_gradient, Profile.C100_cumulative, Profile.C100_cumulative_point, Profile.C100_fitted, Profile.C100_normal_refuted, Profile.C100_prediction, Profile.C100_profile, Profile.C100_rfrac, Profile.C100_sersic, Profile.C100_shear_refuted, Profile.C100_total, Profile.C104_exp_squared, Profile.C104_triangular_refuted, Profile.C104_unknown, Profile.C104_valid_partial, Profile.C157_convergence, Profile.C157_deviation, Profile.C157_free_refuted, Profile.C157_halves, Profile.C157_minimum, Profile.C157_mixture, Profile.C157_profile, Profile.C157_roughness, Profile.C157_roughness_refuted, Profile.C157_scale, Profile.C157_smoothing, Profile.C157_start, Profile.C157_stationary, Profile.C157_wings, Profile.C98_fraction, Profile.C98_fraction_shape, Profile.C98_intensity, Profile.C98_isophote, Profile.C99_kron_partial, Profile.C99_limited, Profile.C99_limited_refuted, Profile.Files.C172_cumulative, Profile.Files.C172_dotted, Profile.Files.C172_model_partial, Profile.Files.C172_model_refuted, Profile.Files.C172_residual, Profile.Files.C172_table, Profile.Files.C172_truth, Profile.Spline.C120_below, Profile.Spline.C120_flux, Profile.Spline.C120_gradient_partial, Profile.Spline.C120_gradient_refuted, Profile.Spline.C120_negative, Profile.Spline.C120_nodes_partial, Profile.Spline.C120_nodes_refuted, Profile.Spline.C120_repeated_refuted, Profile.gammaincinv_spec, Psf.C151_centre_refuted, Psf.C151_flux, Psf.C151_position, Psf.C151_position_refuted, Psf.C151_section, Psf.C151_square_partial, Psf.C81_half, Psf.C81_refuted, Psf.C81_width_partial, Psf.C85_density, Psf.C85_posdef, Psf.C85_tuples, Psfdata.C161_amplitude_refuted, Psfdata.C161_argmin, Psfdata.C161_best_partial, Psfdata.C161_calls, Psfdata.C161_demo_refuted, Psfdata.C161_ellipse, Psfdata.C161_ellipse_partial, Psfdata.C161_ellipse_refuted, Psfdata.C161_ellipse_single_refuted, Psfdata.C161_ellipse_sy, Psfdata.C161_growth, Psfdata.C161_growth_fails, Psfdata.C161_growth_refuted, Psfdata.C161_limits, Psfdata.C161_negative_refuted, Psfdata.C161_prediction, Psfdata.C161_rectify_partial, Psfdata.C161_sersic_amplitude_refuted, Psfdata.C161_sersic_centre_refuted, Psfdata.C161_sersic_fails, Psfdata.C161_sersic_partial, Psfdata.C161_sersic_prediction, Psfdata.C161_sersic_sites, Psfdata.C161_single_refuted, Psfdata.C97_blur, Psfdata.C97_convert, Psfdata.C97_layout, Psfdata.C97_rectify, Psfdata.C97_roundtrip, Psfdata.C97_sorted, Psfdata.Output.C166_combine_refuted, Psfdata.Output.C166_filter_refuted, Psfdata.Output.C166_fits, Psfdata.Output.C166_save_partial, Psfdata.Output.C166_save_refuted, Quantile.C91_bands, Quantile.C91_combine_partial, Quantile.C92_catalog, Quantile.C92_coverage, Quantile.C92_range, Quantile.C92_value, Quantile.C93_equal, Quantile.C93_range_partial, Quantile.C93_refuted, Quantile.C93_span, Region.C106_complete_partial, Region.C106_refuted, Region.C106_sorted, Region.C107_corner_refuted, Region.C107_fixed, Region.C107_selection, Region.C107_values, Region.C55_convex, Region.C55_degenerate, Region.C55_image, Region.C55_no_miss, Region.C55_rectangles, Region.C55_sound, Region.C56_accepted, Region.C56_flat, Region.C56_interior, Region.C73_frame, Region.C73_refuted, Region.C73_square_partial, Region.C74_flat_partial, Region.C74_refuted, Region.C75_refuted, Region.C76_corners, Region.C76_inside_partial, Region.C76_near, Region.C76_nodup, Region.C76_rectangle, Region.C76_refuted, Saved.C90_refuted, Saved.C90_roundtrip_partial, Shapes.C126_angle_refuted, Shapes.C126_axes, Shapes.C126_derivs, Shapes.C126_drawn_partial, Shapes.C126_drawn_refuted, Shapes.C126_extremes, Shapes.C126_jades_partial, Shapes.C126_jades_refuted, Shapes.C126_jades_shape_refuted, Shapes.C126_ratio_refuted, Shapes.C126_regions, Shapes.C126_sourcereg_partial, Shapes.C126_sourcereg_refuted, Shear.C54_gradient, Shear.C54_jacobian, Shear.C54_round, Shear.C54_round_singular, Shear.C54_roundtrip, Shear.C54_shape, Shear.C54_shear_roundtrip, Slow.C64_agree_partial, Slow.C64_arcsec, Slow.C64_arcsec_offsets, Slow.C64_arcsec_refuted, Slow.C64_counts, Slow.C64_fixed, Slow.C64_gradient, Slow.C64_helpers, Slow.C64_history_partial, Slow.C64_history_refuted, Slow.C64_nan, Slow.C64_refuted, Slow.C64_witness, Slow.C79_agree, Slow.C79_gaussian, Slow.C79_witness, Slow.Cutout.C178_edge_refuted, Slow.Cutout.C178_extract_refuted, Slow.Cutout.C178_pixels_partial, Slow.Cutout.C178_reference, Slow.Cutout.C178_size, Slow.Cutout.C178_transposed_refuted, Slow.Fixture.C175_exposures, Slow.Fixture.C175_fails, Slow.Fixture.C175_make_refuted, Slow.Fixture.C175_positions, Slow.Fixture.C175_psf, Slow.Fixture.C175_square_partial, Slow.Rebin.C173_deviation, Slow.Rebin.C173_flux, Slow.Rebin.C173_grids, Slow.Rebin.C173_psf, Slow.Rebin.C173_rebin, Slow.Rebin.C173_rebin_refuted, Slow.Render.C129_errors, Slow.Render.C129_gradient, Slow.Render.C129_image, Slow.Render.C129_no_flux, Slow.Render.C129_round, Slow.Render.C129_rows, Slow.Render.C129_witness, Sources.C21_filter, Sources.C21_get_set, Sources.C21_nparams, Sources.C21_set_get, Sources.C22_base_class, Sources.C22_scene, Sources.C23_disjoint, Sources.C23_indices_partial, Sources.C24_rows_partial, Sources.C24_scene, Sources.C25_proposal_partial, Storage.C112_factor, Storage.C112_refuted_no_zero_point, Storage.C112_zero_point, Storage.C113_table, Storage.C38_corners, Storage.C38_every_pixel_once, Storage.C38_labels, Storage.C38_refuted_large, Storage.C39_sizes, Storage.C39_weights_partial, Storage.C40_count, Storage.C40_pixels_partial, Storage.C67_fallback, Storage.C67_nearest, Storage.C70_again_partial, Storage.C70_refuted, Storage.C71_fresh_partial, SuperScene.C01_counts, SuperScene.C02_exclusive, SuperScene.C03_partial, SuperScene.C05_checkin_rows, SuperScene.C06_counters, SuperScene.C07_logs, SuperScene.C08_checkout_rows, SuperScene.C09_radius, SuperScene.C109_axes, SuperScene.C109_cached, SuperScene.C109_close_partial, SuperScene.C109_never_short, SuperScene.C109_reingest_refuted, SuperScene.C109_wrap_refuted, SuperScene.C10_when, SuperScene.C11_stable, SuperScene.C121_circular_finish_partial, SuperScene.C121_circular_turn_partial, SuperScene.C121_crowded_refuted, SuperScene.C121_starved_refuted, SuperScene.C12_reset_midflight, SuperScene.Disk.C101_errors, SuperScene.Disk.C101_exit, SuperScene.Disk.C101_files_partial, SuperScene.Disk.C101_metadata_partial, Transform.Bounce.C32_degenerate, Transform.Bounce.C32_reflection, Transform.C29_bijection, Transform.C30_jacobian, Transform.C30_lndetjac_grad, Transform.C30_plain, Transform.C31_gradient, Transform.C31_object, Transform.C31_stacked, Verification.C158_chi2, Verification.C158_close, Verification.C158_gradients, Verification.C158_image, Verification.C158_kernel, Verification.C158_nan, Verification.C158_offset, Verification.C158_patch, Wcs.C127_gwcs, Wcs.C127_image, Wcs.C127_origin_refuted, Wcs.C127_transparent, Wcs.C128_handles, Wcs.C57_affine, Wcs.C57_consistent, Wcs.C57_limit, Wcs.C57_origin, Wcs.C57_secant, Wcs.C57_stamp, Wcs.C57_tangent, Wcs.C57_tangent_refuted, Wcs.C58_inverse, Wcs.C58_kernel, Wcs.C58_markers, Wcs.C58_markers_refuted, Wcs.C58_markers_scene, Wcs.C58_singular, Weights.C13_distribution_partial, Weights.C13_monotone, Weights.C13_ratio, Weights.C13_refuted_positive, Weights.C13_sigmoid_monotone, Weights.C13_sigmoid_refuted, Weights.C13_valid_twice_invalid
