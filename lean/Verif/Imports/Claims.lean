import Verif.Imports.Optional

/-!
# C159: the modules of forcepho
-/

set_option autoImplicit false

namespace Forcepho.Imports

/-- Whether the text of `p` asks the module `m` for the name `x`. -/
def asks (tbl : Table) (p m : Path) (x : String) : Bool :=
  match text tbl p with
  | none => false
  | some t => t.any fun st => match st with
    | .frm m' xs => m' == m && xs.any fun y => y.1 == x
    | _ => false

theorem asks_fails (tbl : Table) (ext : String → Bool) (n : Nat) (p m : Path) (x : String) (s s' : State)
    (h : Good tbl [] s) (ha : asks tbl p m x = true) (k : Nat) (hc : cannot tbl k m x = true) :
    load tbl ext n p s ≠ .ok s' := by
  unfold asks at ha
  cases ht : text tbl p with
  | none => rw [ht] at ha; cases ha
  | some t =>
    rw [ht] at ha
    obtain ⟨st, hst, hx⟩ := List.any_eq_true.1 ha
    cases st with
    | frm m' xs =>
      simp only [Bool.and_eq_true, beq_iff_eq] at hx
      obtain ⟨rfl, hx⟩ := hx
      obtain ⟨y, hy, hyx⟩ := List.any_eq_true.1 hx
      simp only [beq_iff_eq] at hyx
      exact load_fails tbl ext n p _ x s s' h t ht xs hst y.2 (by rw [← hyx]; exact hy) k hc
    | _ => cases hx

/-- C159, refuted (dispatcher). Whatever is installed and whatever has been imported before, `import forcepho.dispatcher`
(and so `python -m forcepho.dispatcher`, the program the launch scripts start) fails: it takes `read_config` from
`forcepho.utils`, which has no such name. -/
theorem C159_dispatcher_refuted (ext : String → Bool) (n : Nat) (s s' : State) (h : Good package [] s) :
    load package ext n ["forcepho", "dispatcher"] s ≠ .ok s' :=
  asks_fails package ext n _ ["forcepho", "utils"] "read_config" s s' h (by decide +kernel) 3 (by decide +kernel)

/-- C159, refuted (scripts). Whatever is installed and whatever has been imported before, none of these scripts gets past
its imports: the verification, the old tests but two, the fit of PSF mixtures. -/
theorem C159_scripts_refuted (ext : String → Bool) (n : Nat) (s s' : State) (h : Good everything [] s) (p : Path)
    (hp : p ∈ [["verify_reference"], ["make_psf_mixture"], ["create_test_data"], ["patch_conversion"],
      ["run_patch_cpu_test_simple"], ["test_grad_patch"], ["test_gradients"], ["test_photocounts"], ["test_shear"],
      ["test_simple"], ["timing"]]) :
    load everything ext n p s ≠ .ok s' := by
  simp only [List.mem_cons, List.not_mem_nil, or_false] at hp
  rcases hp with rfl | rfl | rfl | rfl | rfl | rfl | rfl | rfl | rfl | rfl | rfl
  · exact asks_fails everything ext n _ ["forcepho", "utils"] "read_config" s s' h (by decide +kernel) 3 (by decide +kernel)
  · exact asks_fails everything ext n _ ["forcepho", "mixtures"] "fit_jwst_psfs" s s' h (by decide +kernel) 3 (by decide +kernel)
  · exact asks_fails everything ext n _ ["forcepho"] "paths" s s' h (by decide +kernel) 3 (by decide +kernel)
  · exact asks_fails everything ext n _ ["forcepho", "stamp"] "PostageStamp" s s' h (by decide +kernel) 3 (by decide +kernel)
  · exact asks_fails everything ext n _ ["forcepho", "likelihood"] "WorkPlan" s s' h (by decide +kernel) 3 (by decide +kernel)
  · exact asks_fails everything ext n _ ["forcepho"] "gaussmodel" s s' h (by decide +kernel) 3 (by decide +kernel)
  · exact asks_fails everything ext n _ ["forcepho"] "gaussmodel" s s' h (by decide +kernel) 3 (by decide +kernel)
  · exact asks_fails everything ext n _ ["forcepho"] "gaussmodel" s s' h (by decide +kernel) 3 (by decide +kernel)
  · exact asks_fails everything ext n _ ["forcepho"] "paths" s s' h (by decide +kernel) 3 (by decide +kernel)
  · exact asks_fails everything ext n _ ["forcepho", "stamp"] "PostageStamp" s s' h (by decide +kernel) 3 (by decide +kernel)
  · exact asks_fails everything ext n _ ["forcepho"] "paths" s s' h (by decide +kernel) 3 (by decide +kernel)

/-- The modules from outside the repository that are imported unconditionally. -/
def required (tbl : Table) : List String :=
  tbl.flatMap fun e => e.2.flatMap fun st => match st with
    | .ext m _ => [m]
    | _ => []

theorem required_mem (tbl : Table) (e : Path × Text) (he : e ∈ tbl) (m : String) (xs : List String)
    (h : Stmt.ext m xs ∈ e.2) : m ∈ required tbl := by
  unfold required
  rw [List.mem_flatMap]
  refine ⟨e, he, ?_⟩
  rw [List.mem_flatMap]
  exact ⟨_, h, by simp⟩

/-- An installation with everything the package imports unconditionally agrees with a full one. -/
theorem package_agrees (ext : String → Bool)
    (hreq : ∀ m ∈ ["os", "sys", "time", "json", "argparse", "os.path", "itertools", "glob", "warnings", "logging",
      "functools", "collections", "socket", "re", "numpy", "h5py", "astropy", "astropy.io", "astropy.wcs",
      "astropy.coordinates", "astropy.utils.exceptions", "scipy.special", "scipy.optimize", "scipy.interpolate",
      "scipy.spatial", "scipy.ndimage", "scipy.linalg"], ext m = true) :
    ∀ e ∈ package, ∀ (m : String) (xs : List String), Stmt.ext m xs ∈ e.2 → ext m = (fun _ => true) m := by
  intro e he m xs hm
  apply hreq
  have h1 := required_mem package e he m xs hm
  have h2 : (required package).all (fun m => ["os", "sys", "time", "json", "argparse", "os.path", "itertools", "glob",
      "warnings", "logging", "functools", "collections", "socket", "re", "numpy", "h5py", "astropy", "astropy.io",
      "astropy.wcs", "astropy.coordinates", "astropy.utils.exceptions", "scipy.special", "scipy.optimize",
      "scipy.interpolate", "scipy.spatial", "scipy.ndimage", "scipy.linalg"].contains m) = true := by decide +kernel
  have := List.all_eq_true.1 h2 m h1
  simpa using this

/-- C159, partial (imports). With numpy, scipy, astropy, h5py and the standard library, and whatever else is or is not
installed (jax, numpyro, matplotlib, theano, pycuda, ...), each of these modules can be imported in a new session.
Missing: `forcepho.dispatcher`, refuted above. -/
theorem C159_imports_partial (ext : String → Bool)
    (hreq : ∀ m ∈ ["os", "sys", "time", "json", "argparse", "os.path", "itertools", "glob", "warnings", "logging",
      "functools", "collections", "socket", "re", "numpy", "h5py", "astropy", "astropy.io", "astropy.wcs",
      "astropy.coordinates", "astropy.utils.exceptions", "scipy.special", "scipy.optimize", "scipy.interpolate",
      "scipy.spatial", "scipy.ndimage", "scipy.linalg"], ext m = true) (p : Path)
    (hp : p ∈ [["forcepho"], ["forcepho", "config"], ["forcepho", "fitting"], ["forcepho", "kernel_limits"],
      ["forcepho", "mixtures"], ["forcepho", "mixtures", "psf_mix_em"], ["forcepho", "mixtures", "psf_mix_hmc"],
      ["forcepho", "mixtures", "sersic_mix_oned"], ["forcepho", "mixtures", "sersic_mix_twod"],
      ["forcepho", "mixtures", "utils_em"], ["forcepho", "mixtures", "utils_hmc"], ["forcepho", "model"],
      ["forcepho", "patches"], ["forcepho", "patches", "device_patch"], ["forcepho", "patches", "patch"],
      ["forcepho", "patches", "pixel_patch"], ["forcepho", "patches", "static_patch"], ["forcepho", "patches", "storage"],
      ["forcepho", "postprocess"], ["forcepho", "priors"], ["forcepho", "proposal"], ["forcepho", "region"],
      ["forcepho", "slow"], ["forcepho", "slow", "gaussmodel"], ["forcepho", "slow", "likelihood"],
      ["forcepho", "slow", "psf"], ["forcepho", "slow", "stamp"], ["forcepho", "sources"], ["forcepho", "superscene"],
      ["forcepho", "tasks"], ["forcepho", "utils"], ["forcepho", "utils", "catalog"], ["forcepho", "utils", "chain"],
      ["forcepho", "utils", "corner"], ["forcepho", "utils", "ds9"], ["forcepho", "utils", "io"],
      ["forcepho", "utils", "profile"], ["forcepho", "utils", "wcs"]]) :
    ∃ s', load package ext 12 p [] = .ok s' ∧ ∃ md, (p, md) ∈ s' := by
  have hok : ∀ q ∈ [["forcepho"], ["forcepho", "config"], ["forcepho", "fitting"], ["forcepho", "kernel_limits"],
      ["forcepho", "mixtures"], ["forcepho", "mixtures", "psf_mix_em"], ["forcepho", "mixtures", "psf_mix_hmc"],
      ["forcepho", "mixtures", "sersic_mix_oned"], ["forcepho", "mixtures", "sersic_mix_twod"],
      ["forcepho", "mixtures", "utils_em"], ["forcepho", "mixtures", "utils_hmc"], ["forcepho", "model"],
      ["forcepho", "patches"], ["forcepho", "patches", "device_patch"], ["forcepho", "patches", "patch"],
      ["forcepho", "patches", "pixel_patch"], ["forcepho", "patches", "static_patch"], ["forcepho", "patches", "storage"],
      ["forcepho", "postprocess"], ["forcepho", "priors"], ["forcepho", "proposal"], ["forcepho", "region"],
      ["forcepho", "slow"], ["forcepho", "slow", "gaussmodel"], ["forcepho", "slow", "likelihood"],
      ["forcepho", "slow", "psf"], ["forcepho", "slow", "stamp"], ["forcepho", "sources"], ["forcepho", "superscene"],
      ["forcepho", "tasks"], ["forcepho", "utils"], ["forcepho", "utils", "catalog"], ["forcepho", "utils", "chain"],
      ["forcepho", "utils", "corner"], ["forcepho", "utils", "ds9"], ["forcepho", "utils", "io"],
      ["forcepho", "utils", "profile"], ["forcepho", "utils", "wcs"]],
      (load package (fun _ => true) 12 q []).isOk = true := by decide +kernel
  have h1 := hok p hp
  rcases same_cases (C159_optional package (by decide +kernel) ext (fun _ => true) (package_agrees ext hreq) 12 p [] [] trivial) with
    ⟨s, u, e1, e2, _⟩ | ⟨e, e1, e2⟩
  · exact ⟨s, e1, (load_keeps package ext 12).2 p [] s e1⟩
  · rw [e2] at h1; cases h1

/-- A session in which nothing has been imported yet: only the program itself. -/
def newSession : State := [(["__main__"], ⟨[], none⟩)]

/-- `from m import *` in two installations, when what `m` exports is not bound under `try`. -/
theorem star_alike (tbl : Table) (ext1 ext2 : String → Bool) (ld1 ld2 : Loader) (hld : LoadersAlike tbl ld1 ld2)
    (p m : Path) (s u : State) (h : Alike tbl s u)
    (hall : ∀ u1 md, ld2 m u = .ok u1 → entry u1 m = some md → ∃ xs, md.all = some xs ∧ ∀ x ∈ xs, x ∉ optionalOf tbl m) :
    SameResult tbl (exec tbl ext1 ld1 p (.star m) s) (exec tbl ext2 ld2 p (.star m) u) := by
  simp only [exec]
  rcases same_cases (hld m s u h) with ⟨s1, u1, e1, e2, h1⟩ | ⟨e, e1, e2⟩
  · rw [e1, e2]
    simp only
    rcases alike_entry tbl m s1 u1 h1 with ⟨h2, h3⟩ | ⟨a, b, h2, h3, h4, _⟩
    · rw [h2, h3]; rfl
    · obtain ⟨xs, hxs, hopt⟩ := hall u1 b e2 h3
      rw [h2, h3]
      simp only
      rw [h4, hxs]
      simp only
      rcases same_cases (getNames_alike tbl ld1 ld2 hld m xs hopt s1 u1 h1) with ⟨s2, u2, e1, e2, h2⟩ | ⟨e, e1, e2⟩
      · rw [e1, e2]
        exact alike_bindIn tbl p _ _ (fun _ _ => Iff.rfl) s2 u2 h2
      · rw [e1, e2]; rfl
  · rw [e1, e2]; rfl

/-- What `star_alike` asks for, checked by running the import. -/
def exportsPlain (m : Path) : Bool :=
  match load package (fun _ => true) 12 m newSession with
  | .error _ => true
  | .ok u => match entry u m with
    | none => true
    | some md => match md.all with
      | none => false
      | some xs => xs.all fun x => !(optionalOf package m).contains x

theorem exportsPlain_sound (m : Path) (h : exportsPlain m = true) (u1 : State) (md : Mod)
    (hl : load package (fun _ => true) 12 m newSession = .ok u1) (he : entry u1 m = some md) :
    ∃ xs, md.all = some xs ∧ ∀ x ∈ xs, x ∉ optionalOf package m := by
  unfold exportsPlain at h
  rw [hl] at h
  simp only [he] at h
  cases ha : md.all with
  | none => rw [ha] at h; cases h
  | some xs =>
    rw [ha] at h
    refine ⟨xs, rfl, ?_⟩
    intro x hx
    simpa using List.all_eq_true.1 h x hx

/-- The names `from m import *` brings into a new session, or the error. -/
def starResult (ext : String → Bool) (m : Path) : Except Err (List String) :=
  match exec package ext (load package ext 12) ["__main__"] (.star m) newSession with
  | .error e => .error e
  | .ok s => match entry s ["__main__"] with
    | none => .ok []
    | some md => .ok md.names

/-- C159, refuted (exports). With everything required installed, `from forcepho.postprocess import *` always fails: the list
of public names has one that is not defined. -/
theorem C159_exports_refuted (ext : String → Bool)
    (hreq : ∀ m ∈ ["os", "sys", "time", "json", "argparse", "os.path", "itertools", "glob", "warnings", "logging",
      "functools", "collections", "socket", "re", "numpy", "h5py", "astropy", "astropy.io", "astropy.wcs",
      "astropy.coordinates", "astropy.utils.exceptions", "scipy.special", "scipy.optimize", "scipy.interpolate",
      "scipy.spatial", "scipy.ndimage", "scipy.linalg"], ext m = true) :
    exec package ext (load package ext 12) ["__main__"] (.star ["forcepho", "postprocess"]) newSession =
      .error (.noName ["forcepho", "postprocess"] "make_errorbars") := by
  have hal : Alike package newSession newSession := ⟨⟨rfl, rfl, fun _ _ => Iff.rfl⟩, trivial⟩
  have h := star_alike package ext (fun _ => true) _ _
    (C159_optional package (by decide +kernel) ext (fun _ => true) (package_agrees ext hreq) 12) ["__main__"]
    ["forcepho", "postprocess"] newSession newSession hal
    (exportsPlain_sound _ (by decide +kernel))
  have hc : (match exec package (fun _ => true) (load package (fun _ => true) 12) ["__main__"]
      (.star ["forcepho", "postprocess"]) newSession with
    | .error e => decide (e = .noName ["forcepho", "postprocess"] "make_errorbars")
    | .ok _ => false) = true := by decide +kernel
  rcases same_cases h with ⟨s, u, _, e2, _⟩ | ⟨e, e1, e2⟩
  · rw [e2] at hc; cases hc
  · rw [e2] at hc
    rw [e1]
    simp only [decide_eq_true_eq] at hc
    rw [hc]

/-- C159, partial (exports). With everything required installed, `from m import *` brings exactly these names.
Missing: `forcepho.postprocess` and `forcepho.dispatcher`, refuted above. -/
theorem C159_exports_partial (ext : String → Bool)
    (hreq : ∀ m ∈ ["os", "sys", "time", "json", "argparse", "os.path", "itertools", "glob", "warnings", "logging",
      "functools", "collections", "socket", "re", "numpy", "h5py", "astropy", "astropy.io", "astropy.wcs",
      "astropy.coordinates", "astropy.utils.exceptions", "scipy.special", "scipy.optimize", "scipy.interpolate",
      "scipy.spatial", "scipy.ndimage", "scipy.linalg"], ext m = true) (m : Path) (xs : List String)
    (hm : (m, xs) ∈ ([
      (["forcepho", "config"], ["main_config_parser", "preprocess_config_parser", "default_config_file", "parse_all",
        "read_config", "make_bounds_kwargs", "new_args", "yaml_to_namespace", "update_config", "rectify_config"]),
      (["forcepho", "fitting"], ["Result", "run_lmc", "run_opt", "run_pymc3", "run_dynesty", "optimize_fluxes",
        "optimize_one_band"]),
      (["forcepho", "kernel_limits"], ["MAXBANDS", "MAXSOURCES", "NPARAMS", "MAX_EXP_ARG", "NUMACCUMS", "MAXRADII"]),
      (["forcepho", "mixtures", "psf_mix_hmc"], ["psf_model", "psf_prediction", "smooth_psf"]),
      (["forcepho", "mixtures", "sersic_mix_twod"], ["sersic_prediction", "sersic_model", "get_kernel"]),
      (["forcepho", "mixtures", "utils_em"], ["psf_mixture"]),
      (["forcepho", "model"], ["Posterior", "FastPosterior", "SlowPosterior", "LogLikeWithGrad", "Transform",
        "BoundedTransform"]),
      (["forcepho", "patches"], ["Patch", "PixelPatch", "StorePatch", "FITSPatch", "DirectPatch", "JadesPatch",
        "SimplePatch"]),
      (["forcepho", "patches", "device_patch"], ["GPUPatchMixin", "CPUPatchMixin"]),
      (["forcepho", "patches", "patch"], ["PatchBase", "Patch"]),
      (["forcepho", "patches", "pixel_patch"], ["PixelPatch", "StorePatch", "FITSPatch", "DirectPatch", "JWST_BANDS"]),
      (["forcepho", "patches", "static_patch"], ["StaticPatch", "patch_to_stamps"]),
      (["forcepho", "patches", "storage"], ["PixelStore", "MetaStore", "PSFStore", "ImageNameSet", "ImageSet",
        "header_to_id"]),
      (["forcepho", "priors"], ["LogPrior", "ExpBeta", "Barrier"]),
      (["forcepho", "proposal"], ["ProposerBase", "Proposer", "GPUProposer", "CPUProposer"]),
      (["forcepho", "region"], ["Region", "CircularRegion", "RectangularRegion", "polygons_overlap",
        "polygon_contains"]),
      (["forcepho", "slow", "gaussmodel"], ["ImageGaussian", "GaussianImageGalaxy", "convert_to_gaussians",
        "get_gaussian_gradients", "compute_gaussian"]),
      (["forcepho", "slow", "likelihood"], ["lnlike_multi", "negative_lnlike_multi", "make_image", "plan_sources",
        "WorkPlan", "FastWorkPlan"]),
      (["forcepho", "slow", "psf"], ["PointSpreadFunction", "get_psf", "make_psf", "params_to_gauss"]),
      (["forcepho", "slow", "stamp"], ["PostageStamp", "scale_at_sky"]),
      (["forcepho", "sources"], ["Scene", "Source", "Star", "SimpleGalaxy", "Galaxy", "ConformalShearGalaxy"]),
      (["forcepho", "superscene"], ["REQUIRED_COLUMNS", "SuperScene", "LinkedSuperScene", "sourcecat_dtype",
        "rectify_catalog", "convert_pa", "make_bounds", "bounds_vectors", "check_bounds", "flux_bounds",
        "adjust_bounds"]),
      (["forcepho", "utils", "catalog"], ["write_table", "out_dtype", "append_catalogs", "combine_chains",
        "pctile_cat"]),
      (["forcepho", "utils", "chain"], ["make_statscat", "make_chaincat", "get_sample_cat"]),
      (["forcepho", "utils", "corner"], ["allcorner", "show_extras", "prettify_axes", "corner", "twodhist",
        "marginal", "scatter", "get_spans", "quantile", "_quantile", "get_cmap"]),
      (["forcepho", "utils", "ds9"], ["cat_to_regions", "annotate_regions"]),
      (["forcepho", "utils", "io"], ["write_to_disk", "write_residuals"]),
      (["forcepho", "utils", "profile"], ["frac_sersic", "kron_radius", "isophotal_radius"]),
      (["forcepho", "utils", "wcs"], ["scale_at_sky", "sky_to_pix"])] : List (Path × List String))) :
    ∃ s md, exec package ext (load package ext 12) ["__main__"] (.star m) newSession = .ok s ∧
      entry s ["__main__"] = some md ∧ ∀ x, x ∈ md.names ↔ x ∈ xs := by
  have hal : Alike package newSession newSession := ⟨⟨rfl, rfl, fun _ _ => Iff.rfl⟩, trivial⟩
  have hpl : ∀ e ∈ ([
      (["forcepho", "config"], ["main_config_parser", "preprocess_config_parser", "default_config_file", "parse_all",
        "read_config", "make_bounds_kwargs", "new_args", "yaml_to_namespace", "update_config", "rectify_config"]),
      (["forcepho", "fitting"], ["Result", "run_lmc", "run_opt", "run_pymc3", "run_dynesty", "optimize_fluxes",
        "optimize_one_band"]),
      (["forcepho", "kernel_limits"], ["MAXBANDS", "MAXSOURCES", "NPARAMS", "MAX_EXP_ARG", "NUMACCUMS", "MAXRADII"]),
      (["forcepho", "mixtures", "psf_mix_hmc"], ["psf_model", "psf_prediction", "smooth_psf"]),
      (["forcepho", "mixtures", "sersic_mix_twod"], ["sersic_prediction", "sersic_model", "get_kernel"]),
      (["forcepho", "mixtures", "utils_em"], ["psf_mixture"]),
      (["forcepho", "model"], ["Posterior", "FastPosterior", "SlowPosterior", "LogLikeWithGrad", "Transform",
        "BoundedTransform"]),
      (["forcepho", "patches"], ["Patch", "PixelPatch", "StorePatch", "FITSPatch", "DirectPatch", "JadesPatch",
        "SimplePatch"]),
      (["forcepho", "patches", "device_patch"], ["GPUPatchMixin", "CPUPatchMixin"]),
      (["forcepho", "patches", "patch"], ["PatchBase", "Patch"]),
      (["forcepho", "patches", "pixel_patch"], ["PixelPatch", "StorePatch", "FITSPatch", "DirectPatch", "JWST_BANDS"]),
      (["forcepho", "patches", "static_patch"], ["StaticPatch", "patch_to_stamps"]),
      (["forcepho", "patches", "storage"], ["PixelStore", "MetaStore", "PSFStore", "ImageNameSet", "ImageSet",
        "header_to_id"]),
      (["forcepho", "priors"], ["LogPrior", "ExpBeta", "Barrier"]),
      (["forcepho", "proposal"], ["ProposerBase", "Proposer", "GPUProposer", "CPUProposer"]),
      (["forcepho", "region"], ["Region", "CircularRegion", "RectangularRegion", "polygons_overlap",
        "polygon_contains"]),
      (["forcepho", "slow", "gaussmodel"], ["ImageGaussian", "GaussianImageGalaxy", "convert_to_gaussians",
        "get_gaussian_gradients", "compute_gaussian"]),
      (["forcepho", "slow", "likelihood"], ["lnlike_multi", "negative_lnlike_multi", "make_image", "plan_sources",
        "WorkPlan", "FastWorkPlan"]),
      (["forcepho", "slow", "psf"], ["PointSpreadFunction", "get_psf", "make_psf", "params_to_gauss"]),
      (["forcepho", "slow", "stamp"], ["PostageStamp", "scale_at_sky"]),
      (["forcepho", "sources"], ["Scene", "Source", "Star", "SimpleGalaxy", "Galaxy", "ConformalShearGalaxy"]),
      (["forcepho", "superscene"], ["REQUIRED_COLUMNS", "SuperScene", "LinkedSuperScene", "sourcecat_dtype",
        "rectify_catalog", "convert_pa", "make_bounds", "bounds_vectors", "check_bounds", "flux_bounds",
        "adjust_bounds"]),
      (["forcepho", "utils", "catalog"], ["write_table", "out_dtype", "append_catalogs", "combine_chains",
        "pctile_cat"]),
      (["forcepho", "utils", "chain"], ["make_statscat", "make_chaincat", "get_sample_cat"]),
      (["forcepho", "utils", "corner"], ["allcorner", "show_extras", "prettify_axes", "corner", "twodhist",
        "marginal", "scatter", "get_spans", "quantile", "_quantile", "get_cmap"]),
      (["forcepho", "utils", "ds9"], ["cat_to_regions", "annotate_regions"]),
      (["forcepho", "utils", "io"], ["write_to_disk", "write_residuals"]),
      (["forcepho", "utils", "profile"], ["frac_sersic", "kron_radius", "isophotal_radius"]),
      (["forcepho", "utils", "wcs"], ["scale_at_sky", "sky_to_pix"])] : List (Path × List String)),
      exportsPlain e.1 = true ∧
      (match starResult (fun _ => true) e.1 with
        | .ok ys => e.2.all (fun x => ys.contains x) && ys.all (fun y => e.2.contains y)
        | .error _ => false) = true := by decide +kernel
  obtain ⟨h1, h2⟩ := hpl (m, xs) hm
  simp only at h1 h2
  have h := star_alike package ext (fun _ => true) _ _
    (C159_optional package (by decide +kernel) ext (fun _ => true) (package_agrees ext hreq) 12) ["__main__"]
    m newSession newSession hal (exportsPlain_sound m h1)
  unfold starResult at h2
  rcases same_cases h with ⟨s, u, e1, e2, hsu⟩ | ⟨e, e1, e2⟩
  · rw [e2] at h2
    simp only at h2
    have hopt : optionalOf package ["__main__"] = [] := by
      have : (optionalOf package ["__main__"]).isEmpty = true := by decide +kernel
      exact List.isEmpty_iff.1 this
    rcases alike_entry package ["__main__"] s u hsu with ⟨_, h4⟩ | ⟨a, b, h3, h4, _, h5⟩
    · -- the program's own entry never disappears
      exfalso
      obtain ⟨md, hmd⟩ := exec_keeps package (fun _ => true) _ (load_keeps package _ 12).1 ["__main__"] ["__main__"] (.star m)
        newSession u e2 ⟨_, List.mem_cons_self⟩
      unfold entry at h4
      rw [Option.map_eq_none_iff, List.find?_eq_none] at h4
      exact h4 _ hmd (by simp)
    · rw [h4] at h2
      simp only [Bool.and_eq_true] at h2
      refine ⟨s, a, e1, h3, ?_⟩
      intro x
      rw [h5 x (by rw [hopt]; simp)]
      constructor
      · intro hh
        simpa using List.all_eq_true.1 h2.2 x hh
      · intro hh
        simpa using List.all_eq_true.1 h2.1 x hh
  · rw [e2] at h2; cases h2

/-- An installation without any optional module meets the hypotheses. -/
example : ∃ s', load package (fun m => !["jax", "jax.numpy", "numpyro", "theano", "pycuda", "matplotlib.pyplot"].contains m)
    12 ["forcepho", "postprocess"] [] = .ok s' := by
  obtain ⟨s', h, _⟩ := C159_imports_partial
    (fun m => !["jax", "jax.numpy", "numpyro", "theano", "pycuda", "matplotlib.pyplot"].contains m)
    (by decide +kernel) ["forcepho", "postprocess"] (by decide +kernel)
  exact ⟨s', h⟩

end Forcepho.Imports
