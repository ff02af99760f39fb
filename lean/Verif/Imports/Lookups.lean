import Verif.Imports.Bound
import Verif.Imports.Demos
import Verif.Imports.Functions

/-!
# C164: functions find the names that they look up

`lookups` is what Python does with the global names of a function while it runs: each is looked up in the module the function
was written in.  Names of Python itself are left out, and so are attributes of objects.
-/

set_option autoImplicit false

namespace Forcepho.Imports

/-- Look up names in turn in the module `p` (any function of forcepho, e.g. forcepho/config.py:138-145); the error is the name in the
`NameError`. -/
def lookups (s : State) (p : Path) : List String → Except String Unit
  | [] => .ok ()
  | x :: xs =>
    match entry s p with
    | none => .error x
    | some md => if md.names.contains x then lookups s p xs else .error x

/-- A check that a text binds a name, perhaps under `try`. -/
def surely (t : Text) (x : String) : Bool :=
  t.any fun st => match st with
    | .bind xs => xs.contains x
    | .ext _ xs => xs.contains x
    | .frm _ xs => xs.any fun y => y.2 == x
    | .attempt is _ => is.any fun i => i.2.contains x
    | _ => false

theorem surely_binds (ext : String → Bool) (t : Text) (x : String) (h : surely t x = true)
    (ho : (∀ is h, Stmt.attempt is h ∈ t → ∀ i ∈ is, x ∉ i.2) ∨
      ∀ is h, Stmt.attempt is h ∈ t → ∀ i ∈ is, i.1 = "" ∨ ext i.1 = true) : ∃ st ∈ t, Binds ext st x := by
  obtain ⟨st, hst, hx⟩ := List.any_eq_true.1 h
  refine ⟨st, hst, ?_⟩
  cases st with
  | bind xs => exact .bind xs x (by simpa using hx)
  | ext m xs => exact .ext m xs x (by simpa using hx)
  | frm m xs =>
    refine .frm m xs x ?_
    obtain ⟨y, hy, he⟩ := List.any_eq_true.1 hx
    exact ⟨y, hy, by simpa using he⟩
  | attempt is hd =>
    obtain ⟨i, hi, he⟩ := List.any_eq_true.1 hx
    have he' : x ∈ i.2 := by simpa using he
    rcases ho with ho | ho
    · exact absurd he' (ho is hd hst i hi)
    · exact .attempt is hd x (ho is hd hst) ⟨i, hi, he'⟩
  | setAll xs => cases hx
  | star m => cases hx

theorem lookups_ok (s : State) (p : Path) (md : Mod) (hp : entry s p = some md) :
    ∀ xs : List String, (∀ x ∈ xs, x ∈ md.names) → lookups s p xs = .ok () := by
  intro xs
  induction xs with
  | nil => intro _; rfl
  | cons x xs ih =>
    intro h
    simp only [lookups, hp]
    rw [if_pos (by simpa using h x (by simp))]
    exact ih fun y hy => h y (by simp [hy])

theorem lookups_error (s : State) (p : Path) (x : String) (hx : ∀ md, (p, md) ∈ s → x ∉ md.names) :
    ∀ xs : List String, x ∈ xs → ∃ y, lookups s p xs = .error y := by
  intro xs
  induction xs with
  | nil => intro h; cases h
  | cons y xs ih =>
    intro h
    cases he : entry s p with
    | none => exact ⟨y, by simp only [lookups, he]⟩
    | some md =>
      by_cases hy : md.names.contains y = true
      · have hne : x ≠ y := by
          rintro rfl
          exact hx md (entry_mem s p md he) (by simpa using hy)
        obtain ⟨z, hz⟩ := ih ((List.mem_cons.1 h).resolve_left hne)
        exact ⟨z, by simp only [lookups, he]; rw [if_pos hy]; exact hz⟩
      · exact ⟨y, by simp only [lookups, he]; rw [if_neg hy]⟩

theorem entry_of_mem (s : State) (p : Path) (md : Mod) (h : (p, md) ∈ s) : ∃ md', entry s p = some md' := by
  apply Option.isSome_iff_exists.1
  unfold entry
  rw [Option.isSome_map, List.find?_isSome]
  exact ⟨(p, md), h, by simp⟩

theorem functions_checked : (functions.all fun e => e.1 == ["forcepho", "dispatcher"] || match text demos e.1 with
    | none => false
    | some t => e.2.all fun f => f.2.all fun x => surely t x || ([
      (["forcepho", "config"], "default_config_file", "ctext"),
      (["forcepho", "mixtures", "sersic_mix_twod"], "sersic_model", "maxg"),
      (["forcepho", "patches", "static_patch"], "patch_to_stamps", "PostageStamp"),
      (["forcepho", "postprocess"], "Residuals.write_cutouts", "hdr"),
      (["forcepho", "postprocess"], "check_multipatch", "vcols"),
      (["forcepho", "postprocess"], "write_sourcereg", "cat_to_reg"),
      (["forcepho", "slow", "stamp"], "test_astrometry", "SimpleWCS"),
      (["forcepho", "utils", "catalog"], "rectify_jades", "sourcecat_dtype"),
      (["color_plot_separate"], "plot_corner", "FormatStrFormatter"),
      (["color_plot_separate"], "plot_residual", "nexp"),
      (["color_plot_together"], "plot_residual", "nexp"),
      (["pair_plot"], "plot_corner", "FormatStrFormatter"),
      (["psf_grid_plot"], "__main__", "make_all_tags")] : List (Path × String × String)).contains
        (e.1, f.1, x)) = true := by
  decide +kernel

/-- C164, partial. Whatever is installed, import any modules of the package, of the demonstrations and of the tests with GalSim,
in any order: then each function of each module that is there finds all names that it looks up, in whatever order, but for
those listed and, if something that its module imports under `try` is not installed, those bound under `try`. Missing: the names
listed, refuted below; the dispatcher, which cannot be imported. -/
theorem C164_names_partial (ext : String → Bool) (n : Nat) (ps : List Path) (s : State)
    (hs : ps.foldlM (fun s p => load demos ext n p s) [] = Except.ok s) (p : Path) (md : Mod) (hp : (p, md) ∈ s)
    (hd : p ≠ ["forcepho", "dispatcher"]) (fs : Funcs) (hfs : (p, fs) ∈ functions) (f : String) (xs : List String)
    (hf : (f, xs) ∈ fs) (ls : List String) (hls : ∀ x ∈ ls, x ∈ xs)
    (hl : ∀ x ∈ ls, (p, f, x) ∉ ([
      (["forcepho", "config"], "default_config_file", "ctext"),
      (["forcepho", "mixtures", "sersic_mix_twod"], "sersic_model", "maxg"),
      (["forcepho", "patches", "static_patch"], "patch_to_stamps", "PostageStamp"),
      (["forcepho", "postprocess"], "Residuals.write_cutouts", "hdr"),
      (["forcepho", "postprocess"], "check_multipatch", "vcols"),
      (["forcepho", "postprocess"], "write_sourcereg", "cat_to_reg"),
      (["forcepho", "slow", "stamp"], "test_astrometry", "SimpleWCS"),
      (["forcepho", "utils", "catalog"], "rectify_jades", "sourcecat_dtype"),
      (["color_plot_separate"], "plot_corner", "FormatStrFormatter"),
      (["color_plot_separate"], "plot_residual", "nexp"),
      (["color_plot_together"], "plot_residual", "nexp"),
      (["pair_plot"], "plot_corner", "FormatStrFormatter"),
      (["psf_grid_plot"], "__main__", "make_all_tags")] : List (Path × String × String)))
    (ho : ∀ t, text demos p = some t →
      (∀ is h, Stmt.attempt is h ∈ t → ∀ i ∈ is, ∀ x ∈ ls, x ∉ i.2) ∨
      ∀ is h, Stmt.attempt is h ∈ t → ∀ i ∈ is, i.1 = "" ∨ ext i.1 = true) :
    lookups s p ls = .ok () := by
  obtain ⟨md', hmd'⟩ := entry_of_mem s p md hp
  obtain ⟨t, ht, hb⟩ := C164_bound demos ext n ps s hs p md' (entry_mem s p md' hmd')
  refine lookups_ok s p md' hmd' ls ?_
  intro x hx
  have h1 := List.all_eq_true.1 functions_checked (p, fs) hfs
  simp only [Bool.or_eq_true, beq_iff_eq, ht] at h1
  have h2 := List.all_eq_true.1 (List.all_eq_true.1 (h1.resolve_left hd) (f, xs) hf) x (hls x hx)
  rw [Bool.or_eq_true] at h2
  rcases h2 with h2 | h2
  · obtain ⟨st, hst, hx'⟩ := surely_binds ext t x h2 (by
      rcases ho t ht with h | h
      · exact Or.inl fun is hd hm i hi => h is hd hm i hi x hx
      · exact Or.inr h)
    exact hb st hst x hx'
  · exact absurd (List.contains_iff_mem.1 h2) (hl x hx)

/-- C164, refuted. These names are in the texts of these functions, but whatever is installed and however often and in
whatever order modules are imported, looking one up is a `NameError`. -/
theorem C164_names_refuted (ext : String → Bool) (n : Nat) (ps : List Path) (s : State)
    (hs : ps.foldlM (fun s p => load demos ext n p s) [] = Except.ok s) (p : Path) (f x : String)
    (h : (p, f, x) ∈ ([
      (["forcepho", "config"], "default_config_file", "ctext"),
      (["forcepho", "mixtures", "sersic_mix_twod"], "sersic_model", "maxg"),
      (["forcepho", "patches", "static_patch"], "patch_to_stamps", "PostageStamp"),
      (["forcepho", "postprocess"], "Residuals.write_cutouts", "hdr"),
      (["forcepho", "postprocess"], "check_multipatch", "vcols"),
      (["forcepho", "postprocess"], "write_sourcereg", "cat_to_reg"),
      (["forcepho", "slow", "stamp"], "test_astrometry", "SimpleWCS"),
      (["forcepho", "utils", "catalog"], "rectify_jades", "sourcecat_dtype"),
      (["color_plot_separate"], "plot_corner", "FormatStrFormatter"),
      (["color_plot_separate"], "plot_residual", "nexp"),
      (["color_plot_together"], "plot_residual", "nexp"),
      (["pair_plot"], "plot_corner", "FormatStrFormatter"),
      (["psf_grid_plot"], "__main__", "make_all_tags")] : List (Path × String × String))) :
    (∃ fs xs, (p, fs) ∈ functions ∧ (f, xs) ∈ fs ∧ x ∈ xs) ∧
    lookups s p [x] = .error x ∧ ∀ ls : List String, x ∈ ls → ∃ y, lookups s p ls = .error y := by
  have hg : Good demos [] s := (C159_session demos ext n ps).2 [] s (C159_session demos ext n ps).1 hs
  have hc : (([
      (["forcepho", "config"], "default_config_file", "ctext"),
      (["forcepho", "mixtures", "sersic_mix_twod"], "sersic_model", "maxg"),
      (["forcepho", "patches", "static_patch"], "patch_to_stamps", "PostageStamp"),
      (["forcepho", "postprocess"], "Residuals.write_cutouts", "hdr"),
      (["forcepho", "postprocess"], "check_multipatch", "vcols"),
      (["forcepho", "postprocess"], "write_sourcereg", "cat_to_reg"),
      (["forcepho", "slow", "stamp"], "test_astrometry", "SimpleWCS"),
      (["forcepho", "utils", "catalog"], "rectify_jades", "sourcecat_dtype"),
      (["color_plot_separate"], "plot_corner", "FormatStrFormatter"),
      (["color_plot_separate"], "plot_residual", "nexp"),
      (["color_plot_together"], "plot_residual", "nexp"),
      (["pair_plot"], "plot_corner", "FormatStrFormatter"),
      (["psf_grid_plot"], "__main__", "make_all_tags")] : List (Path × String × String)).all fun e => cannot demos 3 e.1 e.2.2 &&
        functions.any fun g => g.1 == e.1 && g.2.any fun k => k.1 == e.2.1 && k.2.contains e.2.2) = true := by
    decide +kernel
  have h1 := List.all_eq_true.1 hc (p, f, x) h
  rw [Bool.and_eq_true] at h1
  have hn : ∀ md, (p, md) ∈ s → x ∉ md.names := fun md hm hx =>
    cannot_sound demos 3 p x h1.1 (hg.1 (p, md) hm x hx)
  refine ⟨?_, ?_, lookups_error s p x hn⟩
  · obtain ⟨⟨p', fs⟩, hfs, h2⟩ := List.any_eq_true.1 h1.2
    simp only [Bool.and_eq_true, beq_iff_eq] at h2
    obtain ⟨rfl, h2⟩ := h2
    obtain ⟨⟨f', xs⟩, hxs, h3⟩ := List.any_eq_true.1 h2
    simp only [Bool.and_eq_true, beq_iff_eq] at h3
    obtain ⟨rfl, h3⟩ := h3
    exact ⟨fs, xs, hfs, hxs, List.contains_iff_mem.1 h3⟩
  · cases he : entry s p with
    | none => simp only [lookups, he]
    | some md =>
      simp only [lookups, he]
      rw [if_neg (by simpa using hn md (entry_mem s p md he))]

/-- C164, bare installation. With numpy, scipy, h5py and astropy but without matplotlib, jax, numpyro and pycuda, every module of the
package but the dispatcher can still be imported, and in a new session the functions that would meet a missing name are exactly
these, with these names: the plots, the fits of mixtures by sampling, and all that needs the GPU. -/
theorem C164_bare :
    ((functions.filter fun e => e.1.head? == some "forcepho" && e.1 != ["forcepho", "dispatcher"]).all fun e =>
      (load package (fun m => ["os", "sys", "time", "json", "argparse", "os.path", "itertools", "glob", "warnings", "logging",
        "functools", "collections", "socket", "re", "numpy", "h5py", "astropy", "astropy.io", "astropy.wcs",
        "astropy.coordinates", "astropy.utils.exceptions", "scipy.special", "scipy.optimize", "scipy.interpolate",
        "scipy.spatial", "scipy.ndimage", "scipy.linalg"].contains m) 12 e.1 []).isOk) = true ∧
    ((functions.filter fun e => e.1.head? == some "forcepho" && e.1 != ["forcepho", "dispatcher"]).flatMap fun e =>
      match load package (fun m => ["os", "sys", "time", "json", "argparse", "os.path", "itertools", "glob", "warnings", "logging",
        "functools", "collections", "socket", "re", "numpy", "h5py", "astropy", "astropy.io", "astropy.wcs",
        "astropy.coordinates", "astropy.utils.exceptions", "scipy.special", "scipy.optimize", "scipy.interpolate",
        "scipy.spatial", "scipy.ndimage", "scipy.linalg"].contains m) 12 e.1 [] with
      | .error _ => []
      | .ok s => (e.2.map fun f => (e.1, f.1, f.2.filter fun x => !(lookups s e.1 [x]).isOk)).filter fun r => !r.2.2.isEmpty) =
    [(["forcepho", "config"], "default_config_file", ["ctext"]),
     (["forcepho", "mixtures", "psf_mix_hmc"], "psf_prediction", ["jnp"]),
     (["forcepho", "mixtures", "psf_mix_hmc"], "psf_model", ["dist", "jnp", "numpyro"]),
     (["forcepho", "mixtures", "sersic_mix_oned"], "plot_profiles", ["pl"]),
     (["forcepho", "mixtures", "sersic_mix_oned"], "plot_cfd", ["pl"]),
     (["forcepho", "mixtures", "sersic_mix_oned"], "plot_amps", ["pl"]),
     (["forcepho", "mixtures", "sersic_mix_oned"], "fit_profiles", ["PdfPages", "pl"]),
     (["forcepho", "mixtures", "sersic_mix_twod"], "sersic_prediction", ["jnp"]),
     (["forcepho", "mixtures", "sersic_mix_twod"], "sersic_model", ["dist", "jnp", "maxg", "numpyro"]),
     (["forcepho", "mixtures", "sersic_mix_twod"], "free_sersic_prediction", ["jnp"]),
     (["forcepho", "mixtures", "utils_em"], "plot_model", ["PdfPages", "get_cmap", "pl"]),
     (["forcepho", "mixtures", "utils_hmc"], "infer",
      ["AutoDelta", "AutoLaplaceApproximation", "MCMC", "NUTS", "SVI", "Trace_ELBO", "optim", "random"]),
     (["forcepho", "patches", "device_patch"], "GPUPatchMixin.send_to_device", ["cuda"]),
     (["forcepho", "patches", "device_patch"], "GPUPatchMixin.replace_device_meta_ptrs", ["cuda"]),
     (["forcepho", "patches", "device_patch"], "GPUPatchMixin.send_patchstruct_to_device", ["cuda"]),
     (["forcepho", "patches", "device_patch"], "GPUPatchMixin.retrieve_array", ["cuda"]),
     (["forcepho", "patches", "static_patch"], "patch_to_stamps", ["PostageStamp"]),
     (["forcepho", "postprocess"], "Residuals.write_cutouts", ["hdr", "pl"]),
     (["forcepho", "postprocess"], "check_multipatch", ["vcols"]),
     (["forcepho", "postprocess"], "write_sourcereg", ["cat_to_reg"]),
     (["forcepho", "postprocess"], "residual_pdf", ["PdfPages", "pl"]),
     (["forcepho", "postprocess"], "chain_pdf", ["PdfPages", "pl"]),
     (["forcepho", "proposal"], "GPUProposer.__init__", ["SourceModule"]),
     (["forcepho", "proposal"], "GPUProposer.evaluate_proposal", ["cuda"]),
     (["forcepho", "slow", "stamp"], "test_astrometry", ["SimpleWCS"]),
     (["forcepho", "utils", "catalog"], "rectify_jades", ["sourcecat_dtype"]),
     (["forcepho", "utils", "corner"], "prettify_axes", ["MaxNLocator", "NullLocator", "ScalarFormatter"]),
     (["forcepho", "utils", "corner"], "demo", ["pl"])] := by
  decide +kernel

/-- The conditions can be met: `forcepho.config` in a new session without anything optional, the names of `parse_all`. -/
example : ∃ s md, [["forcepho", "config"]].foldlM (fun s p => load demos (fun m => (required demos).contains m) 14 p s) [] =
      Except.ok s ∧ (["forcepho", "config"], md) ∈ s ∧
    lookups s ["forcepho", "config"] ["rectify_config", "new_args"] = .ok () ∧
    lookups s ["forcepho", "config"] ["main_config_parser", "ctext"] = .error "ctext" := by
  have hok : (match [["forcepho", "config"]].foldlM
      (fun s p => load demos (fun m => (required demos).contains m) 14 p s) [] with
    | .ok s => (match lookups s ["forcepho", "config"] ["rectify_config", "new_args"] with | .ok () => true | .error _ => false) &&
        (match lookups s ["forcepho", "config"] ["main_config_parser", "ctext"] with | .ok () => false | .error y => y == "ctext") &&
        (entry s ["forcepho", "config"]).isSome
    | .error _ => false) = true := by decide +kernel
  split at hok
  · rename_i s hs
    simp only [Bool.and_eq_true] at hok
    obtain ⟨⟨h1, h2⟩, h3⟩ := hok
    obtain ⟨md, hmd⟩ := Option.isSome_iff_exists.1 h3
    refine ⟨s, md, hs, entry_mem s _ md hmd, ?_, ?_⟩
    · split at h1
      · assumption
      · cases h1
    · split at h2
      · cases h2
      · rename_i y hy
        rw [hy]
        simp only [beq_iff_eq] at h2
        rw [h2]
  · cases hok

end Forcepho.Imports
