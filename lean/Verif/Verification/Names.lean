/-!
# C158: the names the verification scripts use

Model of how names are resolved in the bodies of tests/verification/verify_reference.py and make_reference.py: a statement
reads names and then binds names; a name that is bound nowhere when read raises `NameError`.  Values, attributes and the
branches not taken are not modelled.
-/

set_option autoImplicit false

namespace Forcepho.Verification

/-! ## Model -/

/-- A statement: the names it reads, then the names it binds. -/
structure Line where
  reads : List String
  binds : List String

/-- Run a body where the names `env` (globals and builtins) are bound: the first name read that is not bound. -/
def firstUnbound (env : List String) : List Line → Option String
  | [] => none
  | l :: ls =>
    match l.reads.find? fun x => !env.contains x with
    | some x => some x
    | none => firstUnbound (env ++ l.binds) ls

/-- The names bound at the top of verify_reference.py (lines 9-33, 36, 90, 116, 146, 184) and the builtins used. -/
def verifyGlobals : List String :=
  ["os", "sys", "glob", "shutil", "time", "argparse", "logging", "json", "np", "fits", "forcepho", "FITSPatch",
   "CPUPatchMixin", "SimplePatch", "NumpyEncoder", "read_config", "write_residuals", "Galaxy", "HASGPU", "SimpleCPUPatch",
   "test_ingredients", "validate", "test_chi2", "test_gradients", "display", "print", "vars", "str", "int", "ValueError",
   "enumerate"]

/-- `test_ingredients` (verify_reference.py:36-87). -/
def ingredientsBody : List Line := [
  ⟨[], ["config_file", "reference_image", "bandlist", "kernel_type"]⟩, ⟨["logging"], ["logger"]⟩, ⟨["argparse"], ["args"]⟩,
  ⟨["config_file", "args"], []⟩, ⟨["reference_image", "args"], []⟩, ⟨["bandlist", "args"], []⟩,
  ⟨["kernel_type", "HASGPU", "SimplePatch", "SimpleCPUPatch", "args"], ["Patch"]⟩, ⟨["logger", "args"], []⟩,
  ⟨["read_config", "args"], ["config"]⟩, ⟨["os", "config"], []⟩, ⟨["shutil", "config"], ["_"]⟩, ⟨["config"], ["n"]⟩,
  ⟨["fits", "n"], ["hdul"]⟩, ⟨["np", "hdul"], ["active", "hdr"]⟩, ⟨["hdr"], ["bands"]⟩, ⟨["logger"], []⟩,
  ⟨["Patch", "config"], ["patcher"]⟩, ⟨["patcher", "bands", "logger"], []⟩, ⟨["Galaxy"], ["shape_cols"]⟩,
  ⟨["patcher", "active", "shape_cols"], ["model", "q"]⟩, ⟨["config", "hdul", "model", "q"], []⟩]

/-- `validate` (verify_reference.py:90-113). -/
def validateBody : List Line := [
  ⟨[], ["write"]⟩, ⟨["logging"], ["logger"]⟩, ⟨["test_ingredients"], ["config", "hdul", "model", "q"]⟩,
  ⟨["model", "q"], ["residuals"]⟩, ⟨["patcher", "residuals"], ["model_image"]⟩, ⟨["logger"], []⟩,
  ⟨["patcher"], ["valid"]⟩, ⟨["np", "residuals", "valid"], []⟩, ⟨["logger", "hdul"], []⟩]

/-- `test_chi2` (verify_reference.py:116-143). -/
def chi2Body : List Line := [
  ⟨["logging"], ["logger"]⟩, ⟨["test_ingredients"], ["config", "hdul", "model", "q"]⟩, ⟨["hdul"], []⟩,
  ⟨["model"], ["patcher"]⟩, ⟨["patcher"], ["valid"]⟩, ⟨["model", "q"], ["z"]⟩, ⟨["model", "z"], ["lnp", "lnp_grad"]⟩,
  ⟨["logger"], []⟩, ⟨["model", "z"], []⟩, ⟨["np", "lnp", "model"], []⟩, ⟨["np", "lnp_grad", "model"], []⟩,
  ⟨["patcher"], ["chi2"]⟩, ⟨["np", "chi2", "valid"], []⟩, ⟨["chi2", "patcher"], ["chi2"]⟩,
  ⟨["np", "chi2", "valid", "lnp"], []⟩]

/-- `test_gradients` (verify_reference.py:146-181), without the branch under `if False`. -/
def gradientsBody : List Line := [
  ⟨["logging"], ["logger"]⟩, ⟨["test_ingredients"], ["config", "hdul", "model", "q"]⟩, ⟨["model"], ["patcher"]⟩,
  ⟨["patcher"], ["valid"]⟩, ⟨["q"], ["qoff"]⟩, ⟨["qoff"], []⟩, ⟨["model", "qoff"], ["zoff"]⟩, ⟨[], ["delta"]⟩,
  ⟨["model", "zoff", "delta"], ["dlnp", "dlnp_num"]⟩, ⟨["np", "dlnp", "dlnp_num"], []⟩, ⟨["hdul"], []⟩]

/-- `display` (verify_reference.py:184-201). -/
def displayBody : List Line := [
  ⟨["logging"], ["logger"]⟩, ⟨["test_ingredients"], ["config", "hdul", "model", "q"]⟩, ⟨["hdul"], []⟩,
  ⟨["model"], ["patcher"]⟩, ⟨["patcher"], ["valid"]⟩, ⟨["model", "q"], ["residuals"]⟩,
  ⟨["patcher", "valid", "int"], ["x", "y"]⟩, ⟨["np", "x", "y"], ["im"]⟩, ⟨["patcher"], ["valid"]⟩,
  ⟨["residual", "valid", "im", "x", "y"], []⟩, ⟨["im"], []⟩]

/-- The script (verify_reference.py:204-238). -/
def verifyMain : List Line := [
  ⟨["argparse"], ["parser"]⟩, ⟨["parser", "str"], []⟩, ⟨["parser"], ["args"]⟩, ⟨["vars", "args"], ["params"]⟩,
  ⟨["logging"], ["logger"]⟩, ⟨["test_ingredients", "params"], ["config", "hdul", "model", "q"]⟩, ⟨["hdul"], []⟩,
  ⟨["model"], ["patcher"]⟩, ⟨["model", "q"], ["residuals"]⟩, ⟨["patcher", "residuals"], ["model_image"]⟩, ⟨["logger"], []⟩,
  ⟨["forcepho"], ["vers"]⟩, ⟨["time"], ["ts"]⟩, ⟨["config", "vers"], ["out"]⟩,
  ⟨["write_residuals", "patcher", "out", "residuals"], []⟩, ⟨["logger", "out"], []⟩, ⟨["patcher"], ["valid"]⟩,
  ⟨["np", "residuals", "valid"], []⟩, ⟨["logger"], []⟩]

/-- The names bound at the top of make_reference.py (lines 8-19, 22, 34, 50, 90) and the builtins used. -/
def referenceGlobals : List String :=
  ["argparse", "time", "np", "h5py", "fits", "WCS", "forcepho", "PostageStamp", "scale_at_sky", "PointSpreadFunction",
   "Galaxy", "sourcecat_dtype", "get_githash", "forcepho_slow_model", "config_to_cat", "make_stamp", "str", "float", "int",
   "vars", "zip", "len", "print", "getattr"]

/-- `forcepho_slow_model` (make_reference.py:34-47). -/
def slowModelBody : List Line := [
  ⟨[], ["catrow", "stamp", "band", "psf", "splinedata"]⟩, ⟨["Galaxy", "splinedata"], ["galaxy"]⟩,
  ⟨["galaxy", "catrow", "band"], []⟩, ⟨["psf", "PointSpreadFunction"], ["psf"]⟩, ⟨["psf", "stamp"], []⟩,
  ⟨["stamp", "galaxy"], ["im", "grad"]⟩, ⟨["im", "stamp"], ["im"]⟩, ⟨["im", "grad", "galaxy"], []⟩]

/-- `config_to_cat` (make_reference.py:50-87). -/
def configToCatBody : List Line := [
  ⟨[], ["config", "stamp", "origin"]⟩, ⟨["sourcecat_dtype", "config"], ["cdtype"]⟩, ⟨["np", "cdtype"], ["cat"]⟩,
  ⟨["config", "cat"], []⟩, ⟨["getattr", "config", "cat"], []⟩, ⟨["stamp"], ["hdul", "wcs"]⟩,
  ⟨["wcs", "stamp", "origin"], ["ra", "dec"]⟩, ⟨["ra", "dec", "cat"], []⟩, ⟨["cat", "hdul", "wcs"], []⟩]

/-- `make_stamp` (make_reference.py:90-97). -/
def makeStampBody : List Line := [
  ⟨[], ["band", "scale", "nx", "ny"]⟩, ⟨["PostageStamp", "nx", "ny"], ["stamp"]⟩, ⟨["np", "scale", "stamp"], []⟩,
  ⟨["band", "stamp"], []⟩, ⟨["stamp"], []⟩]

/-- The script (make_reference.py:100-161). -/
def referenceMain : List Line := [
  ⟨[], ["sw"]⟩, ⟨[], ["lw"]⟩, ⟨["argparse"], ["parser"]⟩, ⟨["parser", "str", "float", "int", "sw", "lw"], []⟩,
  ⟨["parser"], ["args"]⟩, ⟨["time"], ["ts"]⟩, ⟨["ts", "args"], []⟩, ⟨["args", "sw", "lw"], ["scale"]⟩,
  ⟨["h5py", "args"], ["pdat"]⟩, ⟨["pdat", "band"], ["psfcat"]⟩, ⟨["psfcat"], ["psfcat"]⟩,
  ⟨["PointSpreadFunction", "psfcat"], ["fpsf"]⟩, ⟨["fpsf", "len", "psfcat"], []⟩,
  ⟨["make_stamp", "args", "scale"], ["stamp"]⟩, ⟨["config_to_cat", "args", "stamp"], ["cat", "hdr", "wcs"]⟩,
  ⟨["forcepho_slow_model", "cat", "stamp", "args", "fpsf"], ["im", "grad", "gal"]⟩, ⟨["vars", "args"], ["k", "v"]⟩,
  ⟨["hdr", "k", "v"], []⟩, ⟨["args", "hdr", "forcepho", "get_githash", "time"], []⟩, ⟨["fits", "im", "hdr"], ["image"]⟩,
  ⟨["image"], ["hdul"]⟩, ⟨["zip", "grad", "gal"], ["g", "par"]⟩, ⟨["par", "hdr", "hdul", "fits", "g", "stamp"], []⟩,
  ⟨["fits", "cat"], ["catalog"]⟩, ⟨["catalog", "args", "Galaxy", "hdul"], []⟩, ⟨["fits", "hdul"], ["hdul"]⟩,
  ⟨["hdul", "args", "print"], []⟩]

/-! ## C158 -/

/-- Binding more names can only remove errors. -/
theorem firstUnbound_mono (env env' : List String) (h : ∀ x ∈ env, x ∈ env') (ls : List Line)
    (hn : firstUnbound env ls = none) : firstUnbound env' ls = none := by
  induction ls generalizing env env' with
  | nil => rfl
  | cons l ls ih =>
    unfold firstUnbound at hn ⊢
    cases hf : l.reads.find? fun x => !env.contains x with
    | some x => rw [hf] at hn; cases hn
    | none =>
      rw [hf] at hn
      have hf' : l.reads.find? (fun x => !env'.contains x) = none := by
        rw [List.find?_eq_none] at hf ⊢
        intro x hx
        have := hf x hx
        simp only [Bool.not_eq_true, Bool.not_eq_false', List.contains_iff_mem] at this ⊢
        exact h x this
      rw [hf']
      apply ih _ _ _ hn
      intro x hx
      rcases List.mem_append.1 hx with hx | hx
      · exact List.mem_append.2 (Or.inl (h x hx))
      · exact List.mem_append.2 (Or.inr hx)

/-- The error is about a name that some statement reads, that the surroundings do not bind, and that no earlier statement
binds. -/
theorem C158_error (env : List String) (ls : List Line) (x : String) :
    firstUnbound env ls = some x →
      x ∉ env ∧ ∃ before l after, ls = before ++ l :: after ∧ x ∈ l.reads ∧ ∀ k ∈ before, x ∉ k.binds := by
  induction ls generalizing env with
  | nil => intro h; cases h
  | cons l ls ih =>
    intro h
    unfold firstUnbound at h
    cases hf : l.reads.find? fun x => !env.contains x with
    | some y =>
      rw [hf] at h
      injection h with h
      subst h
      have h1 := List.find?_some hf
      have h2 := List.mem_of_find?_eq_some hf
      simp only [Bool.not_eq_true', List.contains_eq_mem, decide_eq_false_iff_not] at h1
      exact ⟨h1, [], l, ls, rfl, h2, by simp⟩
    | none =>
      rw [hf] at h
      obtain ⟨h1, b, k, a, rfl, h2, h3⟩ := ih _ h
      rw [List.mem_append, not_or] at h1
      refine ⟨h1.1, l :: b, k, a, rfl, h2, ?_⟩
      intro m hm
      rcases List.mem_cons.1 hm with rfl | hm
      · exact h1.2
      · exact h3 m hm

/-- A program stops at a name as long as the surroundings do not bind it, when everything before runs. -/
theorem firstUnbound_stops (env extra : List String) (before after : List Line) (pre rest binds : List String) (x : String)
    (hb : firstUnbound env (before ++ [⟨pre, []⟩]) = none) (hx : x ∉ env) (hk : ∀ k ∈ before, x ∉ k.binds)
    (he : x ∉ extra) :
    firstUnbound (env ++ extra) (before ++ ⟨pre ++ x :: rest, binds⟩ :: after) = some x := by
  have hb' := firstUnbound_mono env (env ++ extra) (fun y hy => List.mem_append.2 (Or.inl hy)) _ hb
  have hx' : x ∉ env ++ extra := by simp [hx, he]
  clear hb hx he
  revert hb' hx'
  generalize env ++ extra = E
  intro hb' hx'
  induction before generalizing E with
  | nil =>
    simp only [List.nil_append, firstUnbound] at hb' ⊢
    cases hf : pre.find? fun y => !E.contains y with
    | some y => rw [hf] at hb'; cases hb'
    | none =>
      rw [List.find?_append, hf, List.find?_cons_of_pos (by simpa using hx')]
      rfl
  | cons k ks ih =>
    simp only [List.cons_append, firstUnbound] at hb' ⊢
    cases hf : k.reads.find? fun y => !E.contains y with
    | some y => rw [hf] at hb'; cases hb'
    | none =>
      rw [hf] at hb'
      exact ih (fun m hm => hk m (List.mem_cons_of_mem _ hm)) _ hb' (by
        rw [List.mem_append, not_or]
        exact ⟨hx', hk k (by simp)⟩)

/-- C158, refuted (names). Whatever else is defined at the top of the scripts, short of the very name: `validate`
stops at `patcher`, `display` at `residual`, and making a reference image at `band`. -/
theorem C158_names_refuted (extra : List String) :
    ("patcher" ∉ extra → firstUnbound (verifyGlobals ++ extra) validateBody = some "patcher") ∧
    ("residual" ∉ extra → firstUnbound (verifyGlobals ++ extra) displayBody = some "residual") ∧
    ("band" ∉ extra → firstUnbound (referenceGlobals ++ extra) referenceMain = some "band") := by
  refine ⟨?_, ?_, ?_⟩
  · intro h
    exact firstUnbound_stops verifyGlobals extra (validateBody.take 4) (validateBody.drop 5) [] ["residuals"]
      ["model_image"] "patcher" (by decide +kernel) (by decide +kernel) (by decide +kernel) h
  · intro h
    exact firstUnbound_stops verifyGlobals extra (displayBody.take 9) (displayBody.drop 10) [] ["valid", "im", "x", "y"]
      [] "residual" (by decide +kernel) (by decide +kernel) (by decide +kernel) h
  · intro h
    exact firstUnbound_stops referenceGlobals extra (referenceMain.take 9) (referenceMain.drop 10) ["pdat"] []
      ["psfcat"] "band" (by decide +kernel) (by decide +kernel) (by decide +kernel) h

/-- C158, partial (names). The other functions and the comparison itself find every name they read, whatever else is
defined; so does the making of a reference once `band` is defined.
Missing: `validate`, `display` and the making of a reference; refuted above. -/
theorem C158_names_partial (extra : List String) :
    firstUnbound (verifyGlobals ++ extra) ingredientsBody = none ∧
    firstUnbound (verifyGlobals ++ extra) chi2Body = none ∧
    firstUnbound (verifyGlobals ++ extra) gradientsBody = none ∧
    firstUnbound (verifyGlobals ++ extra) verifyMain = none ∧
    firstUnbound (referenceGlobals ++ extra) slowModelBody = none ∧
    firstUnbound (referenceGlobals ++ extra) configToCatBody = none ∧
    firstUnbound (referenceGlobals ++ extra) makeStampBody = none ∧
    ("band" ∈ extra → firstUnbound (referenceGlobals ++ extra) referenceMain = none) := by
  refine ⟨?_, ?_, ?_, ?_, ?_, ?_, ?_, ?_⟩
  case refine_8 =>
    intro h
    apply firstUnbound_mono ("band" :: referenceGlobals) _ ?_ _ (by decide +kernel)
    intro x hx
    rcases List.mem_cons.1 hx with rfl | hx
    · exact List.mem_append.2 (Or.inr h)
    · exact List.mem_append.2 (Or.inl hx)
  case refine_1 => exact firstUnbound_mono _ _ (fun x hx => List.mem_append.2 (Or.inl hx)) _ (by decide +kernel)
  case refine_2 => exact firstUnbound_mono _ _ (fun x hx => List.mem_append.2 (Or.inl hx)) _ (by decide +kernel)
  case refine_3 => exact firstUnbound_mono _ _ (fun x hx => List.mem_append.2 (Or.inl hx)) _ (by decide +kernel)
  case refine_4 => exact firstUnbound_mono _ _ (fun x hx => List.mem_append.2 (Or.inl hx)) _ (by decide +kernel)
  case refine_5 => exact firstUnbound_mono _ _ (fun x hx => List.mem_append.2 (Or.inl hx)) _ (by decide +kernel)
  case refine_6 => exact firstUnbound_mono _ _ (fun x hx => List.mem_append.2 (Or.inl hx)) _ (by decide +kernel)
  case refine_7 => exact firstUnbound_mono _ _ (fun x hx => List.mem_append.2 (Or.inl hx)) _ (by decide +kernel)

/-- Nothing more is defined in the scripts. -/
example : firstUnbound verifyGlobals validateBody = some "patcher" := by
  have := (C158_names_refuted []).1 (by simp)
  rwa [List.append_nil] at this

end Forcepho.Verification
