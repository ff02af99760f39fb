import Verif.Imports.DemoTexts
import Verif.Imports.Claims

/-!
# C159: the demonstrations and the tests with GalSim
-/

set_option autoImplicit false

namespace Forcepho.Imports

/-- C159, refuted (grid of the PSF demonstration). Whatever is installed and whatever has been imported before,
psf_grid_fit.py does not get past its imports: it takes `make_catalog` from psf_plot.py, which has no such name. -/
theorem C159_grid_refuted (ext : String → Bool) (n : Nat) (s s' : State) (h : Good demos [] s) :
    load demos ext n ["psf_grid_fit"] s ≠ .ok s' :=
  asks_fails demos ext n _ ["psf_plot"] "make_catalog" s s' h (by decide +kernel) 3 (by decide +kernel)

/-- The conditions hold in a new session. -/
example : Good demos [] [] := by
  simp [Good]

theorem demos_agree (ext : String → Bool)
    (hreq : ∀ m ∈ ["os", "sys", "time", "json", "argparse", "os.path", "itertools", "glob", "warnings", "logging", "functools",
      "collections", "socket", "re", "shutil", "copy", "numpy", "h5py", "yaml", "astropy", "astropy.io",
      "astropy.wcs", "astropy.coordinates", "astropy.utils.exceptions", "scipy.special", "scipy.optimize",
      "scipy.interpolate", "scipy.spatial", "scipy.ndimage", "scipy.linalg", "scipy.stats", "matplotlib.pyplot",
      "matplotlib.gridspec", "matplotlib.ticker", "matplotlib.colors", "matplotlib.animation", "matplotlib.patches",
      "matplotlib.lines", "galsim", "stwcs", "drizzlepac", "arviz", "webbpsf", "prospect.plotting.corner"],
      ext m = true) :
    ∀ e ∈ demos, ∀ (m : String) (xs : List String), Stmt.ext m xs ∈ e.2 → ext m = (fun _ => true) m := by
  intro e he m xs hm
  apply hreq
  have h1 := required_mem demos e he m xs hm
  have h2 : (required demos).all (fun m => ["os", "sys", "time", "json", "argparse", "os.path", "itertools", "glob", "warnings", "logging", "functools",
      "collections", "socket", "re", "shutil", "copy", "numpy", "h5py", "yaml", "astropy", "astropy.io",
      "astropy.wcs", "astropy.coordinates", "astropy.utils.exceptions", "scipy.special", "scipy.optimize",
      "scipy.interpolate", "scipy.spatial", "scipy.ndimage", "scipy.linalg", "scipy.stats", "matplotlib.pyplot",
      "matplotlib.gridspec", "matplotlib.ticker", "matplotlib.colors", "matplotlib.animation", "matplotlib.patches",
      "matplotlib.lines", "galsim", "stwcs", "drizzlepac", "arviz", "webbpsf", "prospect.plotting.corner"].contains m) = true := by decide +kernel
  have := List.all_eq_true.1 h2 m h1
  rw [List.contains_iff_mem] at this
  exact this

/-- C159, partial (demonstrations). With the packages that they name installed, and whatever else is or is not (pycuda, jax,
...), each of these scripts gets past its imports in a new session, beside the other files of its directory. Missing:
psf_grid_fit.py, refuted above. -/
theorem C159_demos_partial (ext : String → Bool)
    (hreq : ∀ m ∈ ["os", "sys", "time", "json", "argparse", "os.path", "itertools", "glob", "warnings", "logging", "functools",
      "collections", "socket", "re", "shutil", "copy", "numpy", "h5py", "yaml", "astropy", "astropy.io",
      "astropy.wcs", "astropy.coordinates", "astropy.utils.exceptions", "scipy.special", "scipy.optimize",
      "scipy.interpolate", "scipy.spatial", "scipy.ndimage", "scipy.linalg", "scipy.stats", "matplotlib.pyplot",
      "matplotlib.gridspec", "matplotlib.ticker", "matplotlib.colors", "matplotlib.animation", "matplotlib.patches",
      "matplotlib.lines", "galsim", "stwcs", "drizzlepac", "arviz", "webbpsf", "prospect.plotting.corner"],
      ext m = true)
    (p : Path)
    (hp : p ∈ [["demo_utils"], ["basic"], ["basic_plot"], ["basic_sceneDB"], ["color_fit"], ["color_make"],
      ["color_plot_separate"], ["color_plot_together"], ["mosaic_combine_dithers"], ["mosaic_fit"],
      ["mosaic_make_dithers"], ["mosaic_plot"], ["optimize"], ["optimize_plot"], ["pair_fit"], ["pair_make"],
      ["pair_movie"], ["pair_plot"], ["make_psf"], ["radial_profile"], ["webbpsf_opd"], ["webbpsf_to_fpho"],
      ["psf_grid_plot"], ["psf_one_fit"], ["psf_plot"], ["scene_plot"], ["single_fit"], ["single_make"],
      ["single_plot"], ["test_plot"], ["test_utils"], ["test_psf_mixture"], ["make_summary"], ["test_sersic_mixture"]]) :
    ∃ s', load demos ext 14 p [] = .ok s' ∧ ∃ md, (p, md) ∈ s' := by
  have hok : ∀ q ∈ [["demo_utils"], ["basic"], ["basic_plot"], ["basic_sceneDB"], ["color_fit"], ["color_make"],
      ["color_plot_separate"], ["color_plot_together"], ["mosaic_combine_dithers"], ["mosaic_fit"],
      ["mosaic_make_dithers"], ["mosaic_plot"], ["optimize"], ["optimize_plot"], ["pair_fit"], ["pair_make"],
      ["pair_movie"], ["pair_plot"], ["make_psf"], ["radial_profile"], ["webbpsf_opd"], ["webbpsf_to_fpho"],
      ["psf_grid_plot"], ["psf_one_fit"], ["psf_plot"], ["scene_plot"], ["single_fit"], ["single_make"],
      ["single_plot"], ["test_plot"], ["test_utils"], ["test_psf_mixture"], ["make_summary"], ["test_sersic_mixture"]],
      (load demos (fun _ => true) 14 q []).isOk = true := by decide +kernel
  have h1 := hok p hp
  rcases same_cases (C159_optional demos (by decide +kernel) ext (fun _ => true) (demos_agree ext hreq) 14 p [] [] trivial) with
    ⟨s, u, e1, e2, _⟩ | ⟨e, e1, e2⟩
  · exact ⟨s, e1, (load_keeps demos ext 14).2 p [] s e1⟩
  · rw [e2] at h1; cases h1

end Forcepho.Imports
