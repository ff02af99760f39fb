import Verif.Slow.MultiSlow
import Verif.Shear.Props
import Mathlib.LinearAlgebra.Matrix.NonsingularInverse
import Mathlib.Analysis.SpecialFunctions.ExpDeriv
import Mathlib.Analysis.SpecialFunctions.Sqrt
import Mathlib.Analysis.SpecialFunctions.Trigonometric.Deriv

/-! # Rendering a source on a stamp

`Source.render` and `ConformalShearGalaxy.render` (sources.py:470-498, 1002-1022), `PostageStamp.render`
(slow/stamp.py:111-133), the pixel grid of a `PostageStamp` (stamp.py:50-61), `compute_gig` and `compute_gaussian`
(slow/gaussmodel.py:335-347, 479-531).

The conversion to image gaussians and their evaluation are those of `Verif.Slow.Model`.  Not modelled: stamps given by
number (gaussmodel.py:86-92) and the option `oversample`, which has no effect.  A number that is not finite is `none`
in the gradients. -/

set_option autoImplicit false
set_option linter.unusedSectionVars false

namespace Forcepho.Slow.Render

open Forcepho.Kernel (M22 Param Pixel hasDerivAt_list_sum)
open Forcepho.Transform (hdc)
open Forcepho.Multi (Prof)
open Forcepho.Sources (Cls Attr nshape npos)
open Forcepho.Shear (qOf paOf convertGrad)

/-- The coordinates of the pixels of a stamp in the order of `reshape(-1)`: `np.meshgrid(np.arange(ny), np.arange(nx))`
gives two arrays of shape `(nx, ny)`, the first with the second index, the second with the first
(stamp.py:60-61). -/
def grid (nx ny : Nat) : List (ℝ × ℝ) :=
  ((List.range nx).map fun i : Nat => (List.range ny).map fun j : Nat => ((i : ℝ), (j : ℝ))).flatten

/-- The attributes `q` and `pa`, which are computed for a `ConformalShearGalaxy` (sources.py:968-979). -/
noncomputable def shapeOf (s : Sources.Source ℝ) : ℝ × ℝ :=
  match s.cls with
  | .conformal _ => (qOf (s.attr .ep) (s.attr .ec), paOf (s.attr .ep) (s.attr .ec))
  | _ => (s.attr .q, s.attr .pa)

/-- The flux that is used: the filter is looked up (`ValueError` if unknown), but a source with one flux uses that
(gaussmodel.py:104, 116-120). -/
def fluxOf (flt : String) (s : Sources.Source ℝ) : Option ℝ :=
  if flt ∈ s.filternames then
    if s.flux.length = 1 then s.flux[0]? else s.flux[s.filternames.idxOf flt]?
  else none

/-- What `convert_to_gaussians` reads of a source (gaussmodel.py:94-120). -/
noncomputable def read (prof : Cls → List Prof) (flt : String) (s : Sources.Source ℝ) : Option Slow.Source :=
  (fluxOf flt s).map fun f =>
    { ra := s.attr .ra
      dec := s.attr .dec
      q := (shapeOf s).1
      pa := (shapeOf s).2
      flux := f
      comps := (prof s.cls).map fun c => ⟨c.cov, c.A (s.attr .sersic) (s.attr .rhalf),
        c.dN (s.attr .sersic) (s.attr .rhalf), c.dR (s.attr .sersic) (s.attr .rhalf)⟩ }

/-- The image of `compute_gig` (gaussmodel.py:510, 529). -/
noncomputable def gigImage (o : Opts) (px : List (ℝ × ℝ)) (gs : List Full) : List ℝ :=
  px.map fun p => gs.foldl (fun a f => a + counts o f.g p.1 p.2) 0

open Classical in
/-- One row of the gradients of `compute_gig` (gaussmodel.py:513, 525). -/
noncomputable def gigRow (o : Opts) (px : List (ℝ × ℝ)) (gs : List Full) (prm : Param) : List (Option ℝ) :=
  px.map fun p =>
    if ∀ f ∈ gs, f.ok ∧ GradOk o f.g p.1 p.2 then
      some (gs.foldl (fun a f => a + (f.J prm).dot (gradients o f.g p.1 p.2)) 0)
    else none

/-- `compute_gig` (gaussmodel.py:479-531); `none` is the `IndexError` of `gig.gaussians[0]` (line 512). -/
noncomputable def computeGig (o : Opts) (px : List (ℝ × ℝ)) (deriv : Bool) (gs : List Full) :
    Option (List ℝ × Option (List (List (Option ℝ)))) :=
  if deriv then
    if gs = [] then none
    else some (gigImage o px gs,
      some ([Param.flux, .ra, .dec, .q, .pa, .sersic, .rh].map fun prm => gigRow o px gs prm))
  else some (gigImage o px gs, none)

open Classical in
/-- The product with `ds_deta` for one pixel (sources.py:1019); for a round source the matrix has an infinite entry
and one that is not a number (C54_round_singular). -/
noncomputable def toShear (ep ec : ℝ) : Option ℝ → Option ℝ → Option ℝ × Option ℝ
  | some a, some b =>
    if 2 * Real.log (qOf ep ec ^ 2) = 0 then (none, none)
    else (some (convertGrad ep ec a b).1, some (convertGrad ep ec a b).2)
  | _, _ => (none, none)

/-- `grad[3:5, :] = ds_deta @ grad[3:5, :]` (sources.py:1019). -/
noncomputable def shearRows (ep ec : ℝ) (rows : List (List (Option ℝ))) : List (List (Option ℝ)) :=
  match rows with
  | [r0, r1, r2, r3, r4, r5, r6] =>
    [r0, r1, r2, (List.zipWith (toShear ep ec) r3 r4).map Prod.fst, (List.zipWith (toShear ep ec) r3 r4).map Prod.snd,
      r5, r6]
  | l => l

/-- The rows of the gradients that are kept: `grad[slice(0, 1 + npos + nshape)]` (sources.py:332-338, 496, 1020), after
the change of shape parameters of a `ConformalShearGalaxy`. -/
noncomputable def useRows (s : Sources.Source ℝ) (rows : List (List (Option ℝ))) : List (List (Option ℝ)) :=
  match s.cls with
  | .conformal _ => (shearRows (s.attr .ep) (s.attr .ec) rows).take (1 + npos + nshape s.cls)
  | _ => rows.take (1 + npos + nshape s.cls)

/-- `source.render(stamp, compute_deriv, **options)` and `stamp.render(source, ...)` for a stamp of `nx` by `ny`
pixels in the filter `flt`; `none` is an exception. -/
noncomputable def render (prof : Cls → List Prof) (o : Opts) (deriv : Bool) (st : Stamp) (nx ny : Nat) (flt : String)
    (s : Sources.Source ℝ) : Option (List ℝ × Option (List (List (Option ℝ)))) :=
  match read prof flt s with
  | none => none
  | some x =>
    match gig x st with
    | none => none
    | some gs => (computeGig o (grid nx ny) deriv gs).map fun r => (r.1, r.2.map (useRows s))

/-! ## Specification -/

/-- The density of the normal distribution in the plane. -/
noncomputable def normal (S : Matrix (Fin 2) (Fin 2) ℝ) (m : ℝ × ℝ) (x y : ℝ) : ℝ :=
  Real.exp (-(1 / 2) * dotProduct ![x - m.1, y - m.2] (S⁻¹.mulVec ![x - m.1, y - m.2])) /
    (2 * Real.pi * Real.sqrt S.det)

/-- The integral over a pixel to second order: the value at the centre and a twenty-fourth of the Laplacian. -/
noncomputable def pixelValue (f : ℝ → ℝ → ℝ) (x y : ℝ) : ℝ :=
  f x y + (deriv (deriv fun t => f t y) x + deriv (deriv fun t => f x t) y) / 24

/-- Four numbers as a matrix. -/
def mat (a : M22) : Matrix (Fin 2) (Fin 2) ℝ := !![a.v11, a.v12; a.v21, a.v22]

/-- The covariance in pixels of a gaussian with covariance `C` stretched by `q`, turned by `pa`, mapped by `D` and
blurred by a gaussian of covariance `P`. -/
noncomputable def imageCov (D C P : Matrix (Fin 2) (Fin 2) ℝ) (q pa : ℝ) : Matrix (Fin 2) (Fin 2) ℝ :=
  let A := D * !![Real.cos pa, -Real.sin pa; Real.sin pa, Real.cos pa] * !![1 / q, 0; 0, q]
  A * C * A.transpose + P

/-- What a source is expected to give in a pixel. -/
noncomputable def expected (second : Bool) (st : Stamp) (profile : List (M22 × ℝ)) (flux ra dec q pa x y : ℝ) : ℝ :=
  (profile.map fun c => (st.psf.map fun p =>
    let m : ℝ × ℝ := (st.crpix.1 + p.mean.1 + (st.CW.v11 * (ra - st.crval.1) + st.CW.v12 * (dec - st.crval.2)),
      st.crpix.2 + p.mean.2 + (st.CW.v21 * (ra - st.crval.1) + st.CW.v22 * (dec - st.crval.2)))
    let f := normal (imageCov (mat st.D) (mat c.1) (mat p.cov) q pa) m
    flux * st.G * c.2 * p.amp * (if second then pixelValue f x y else f x y)).sum).sum

/-! ## The image -/

lemma grid_length (nx ny : Nat) : (grid nx ny).length = nx * ny := by
  rw [grid, List.length_flatten, List.map_map]
  simp [Function.comp_def]

lemma grid_get (nx ny i j : Nat) (hi : i < nx) (hj : j < ny) : (grid nx ny)[i * ny + j]? = some ((i : ℝ), (j : ℝ)) := by
  have key : ∀ (l : List Nat) (k a : Nat), l[k]? = some a →
      ((l.map fun i : Nat => (List.range ny).map fun j : Nat => ((i : ℝ), (j : ℝ))).flatten)[k * ny + j]? =
        some ((a : ℝ), (j : ℝ)) := by
    intro l
    induction l with
    | nil => intro k a h; simp at h
    | cons b l ih =>
      intro k a h
      rw [List.map_cons, List.flatten_cons]
      cases k with
      | zero =>
        simp only [List.getElem?_cons_zero, Option.some.injEq] at h
        subst h
        rw [Nat.zero_mul, Nat.zero_add, List.getElem?_append_left (by simpa using hj), List.getElem?_map,
          List.getElem?_range hj]
        rfl
      | succ k =>
        rw [List.getElem?_append_right (by simp [Nat.add_mul]; omega), List.length_map, List.length_range,
          show (k + 1) * ny + j - ny = k * ny + j by rw [Nat.add_mul]; omega]
        exact ih k a (by simpa using h)
  exact key _ i i (List.getElem?_range hi)

lemma image_eq (o : Opts) (px : List (ℝ × ℝ)) (gs : List Full) :
    gigImage o px gs = px.map fun p => (gs.map fun f => counts o f.g p.1 p.2).sum := by
  unfold gigImage
  apply List.map_congr_left
  intro p _
  rw [foldl_add (fun f : Full => counts o f.g p.1 p.2), zero_add]

lemma sigma_mat (s : Source) (st : Stamp) (har : st.arcsec = false) (c : Comp) (p : PComp) :
    mat (sigma s st c p) = imageCov (mat st.D) (mat c.cov) (mat p.cov) s.q s.pa := by
  ext i j
  fin_cases i <;> fin_cases j <;>
    simp only [sigma, tMatrix, dotDot, rotationMatrix, scaleMatrix, psfCov, har, Bool.false_eq_true, if_false, mat,
      imageCov, M22.mul, M22.add, M22.tr, Matrix.mul_apply, Fin.sum_univ_two, Matrix.add_apply, Matrix.transpose_apply,
      Matrix.of_apply, Matrix.cons_val', Matrix.cons_val_zero, Matrix.cons_val_one, Matrix.cons_val_fin_one,
      Fin.zero_eta, Fin.mk_one, Fin.isValue] <;> ring

lemma hasD1 (A a b c x : ℝ) : deriv (fun t => A * Real.exp (-(1 / 2) * (a * t ^ 2 + 2 * b * t + c))) x =
    -(a * x + b) * (A * Real.exp (-(1 / 2) * (a * x ^ 2 + 2 * b * x + c))) := by
  have h : HasDerivAt (fun t : ℝ => -(1 / 2) * (a * t ^ 2 + 2 * b * t + c)) (-(a * x + b)) x := by
    refine hdc ((((((hasDerivAt_id x).pow 2).const_mul a).add ((hasDerivAt_id x).const_mul (2 * b))).add_const
      c).const_mul (-(1 / 2))) (fun t => rfl) ?_
    simp
    ring
  rw [(h.exp.const_mul A).deriv]
  ring

lemma hasD2 (A a b c x : ℝ) : deriv (deriv (fun t => A * Real.exp (-(1 / 2) * (a * t ^ 2 + 2 * b * t + c)))) x =
    ((a * x + b) ^ 2 - a) * (A * Real.exp (-(1 / 2) * (a * x ^ 2 + 2 * b * x + c))) := by
  have e : deriv (fun t => A * Real.exp (-(1 / 2) * (a * t ^ 2 + 2 * b * t + c))) =
      fun x => -(a * x + b) * (A * Real.exp (-(1 / 2) * (a * x ^ 2 + 2 * b * x + c))) := by
    funext x
    exact hasD1 A a b c x
  rw [e]
  have h : HasDerivAt (fun t : ℝ => -(1 / 2) * (a * t ^ 2 + 2 * b * t + c)) (-(a * x + b)) x := by
    refine hdc ((((((hasDerivAt_id x).pow 2).const_mul a).add ((hasDerivAt_id x).const_mul (2 * b))).add_const
      c).const_mul (-(1 / 2))) (fun t => rfl) ?_
    simp
    ring
  have hl : HasDerivAt (fun t : ℝ => -(a * t + b)) (-a) x := by
    refine hdc (((hasDerivAt_id x).const_mul a).add_const b).neg (fun t => rfl) ?_
    simp
  have hp : HasDerivAt (fun t => -(a * t + b) * (A * Real.exp (-(1 / 2) * (a * t ^ 2 + 2 * b * t + c))))
      (((a * x + b) ^ 2 - a) * (A * Real.exp (-(1 / 2) * (a * x ^ 2 + 2 * b * x + c)))) x := by
    refine hdc (hl.mul (h.exp.const_mul A)) (fun t => rfl) ?_
    ring
  exact hp.deriv

/-- The counts of one gaussian are the density it stands for. -/
lemma counts_normal (s : Source) (st : Stamp) (har : st.arcsec = false) (c : Comp) (p : PComp)
    (hc : c.cov.v12 = c.cov.v21) (hp : p.cov.v12 = p.cov.v21) (hdet : 0 < fastDet (sigma s st c p)) (sec : Bool) (x y : ℝ) :
    counts { secondOrder := sec, useDet := false } (toGaussian s st c p p.mean) x y =
      (let m : ℝ × ℝ := (st.crpix.1 + p.mean.1 + (st.CW.v11 * (s.ra - st.crval.1) + st.CW.v12 * (s.dec - st.crval.2)),
        st.crpix.2 + p.mean.2 + (st.CW.v21 * (s.ra - st.crval.1) + st.CW.v22 * (s.dec - st.crval.2)))
      let f := normal (imageCov (mat st.D) (mat c.cov) (mat p.cov) s.q s.pa) m
      s.flux * st.G * c.amp * p.amp * (if sec then pixelValue f x y else f x y)) := by
  have hsym : (sigma s st c p).v12 = (sigma s st c p).v21 := by
    simp only [sigma, psfCov, har, Bool.false_eq_true, if_false, M22.add, M22.mul, M22.tr, hp, hc]
    ring
  rw [← sigma_mat s st har]
  generalize hS : sigma s st c p = S at hsym hdet
  have hd : 0 < S.v11 * S.v22 - S.v21 * S.v12 := hdet
  have hne := hd.ne'
  have hinv : (mat S)⁻¹ = !![S.v22 / (S.v11 * S.v22 - S.v21 * S.v12), -S.v12 / (S.v11 * S.v22 - S.v21 * S.v12);
      -S.v21 / (S.v11 * S.v22 - S.v21 * S.v12), S.v11 / (S.v11 * S.v22 - S.v21 * S.v12)] := by
    apply Matrix.inv_eq_right_inv
    ext i j
    fin_cases i <;> fin_cases j <;> simp [mat, Matrix.mul_apply, Fin.sum_univ_two] <;> field_simp <;> ring
  have hdm : (mat S).det = S.v11 * S.v22 - S.v21 * S.v12 := by
    simp [mat, Matrix.det_fin_two]
    ring
  have hfd : fastDet (fastInv S) = 1 / (S.v11 * S.v22 - S.v21 * S.v12) := by
    simp only [fastDet, fastInv]
    field_simp
  have hsq : Real.sqrt (fastDet (fastInv S)) = 1 / Real.sqrt (S.v11 * S.v22 - S.v21 * S.v12) := by
    rw [hfd, Real.sqrt_div zero_le_one, Real.sqrt_one]
  generalize hD : S.v11 * S.v22 - S.v21 * S.v12 = D at *
  have hform : ∀ (m : ℝ × ℝ) (u v : ℝ), normal (mat S) m u v = 1 / (2 * Real.pi * Real.sqrt D) * Real.exp (-(1 / 2) *
      (S.v22 / D * (u - m.1) ^ 2 + 2 * (-S.v21 / D) * (u - m.1) * (v - m.2) + S.v11 / D * (v - m.2) ^ 2)) := by
    intro m u v
    rw [normal, hinv, hdm]
    simp only [Matrix.mulVec, dotProduct, Fin.sum_univ_two, Matrix.of_apply, Matrix.cons_val_zero, Matrix.cons_val_one,
      Matrix.cons_val', Matrix.cons_val_fin_one]
    rw [hsym, div_eq_inv_mul, one_div (2 * Real.pi * Real.sqrt D)]
    congr 2
    ring
  have hlap : ∀ m : ℝ × ℝ, pixelValue (normal (mat S) m) x y = normal (mat S) m x y * (1 +
      ((S.v22 / D * (x - m.1) + -S.v21 / D * (y - m.2)) ^ 2 + (S.v11 / D * (y - m.2) + -S.v21 / D * (x - m.1)) ^ 2 -
        S.v22 / D - S.v11 / D) / 24) := by
    intro m
    have e1 : (fun t => normal (mat S) m t y) = fun t => 1 / (2 * Real.pi * Real.sqrt D) * Real.exp (-(1 / 2) *
        (S.v22 / D * t ^ 2 + 2 * (-S.v21 / D * (y - m.2) - S.v22 / D * m.1) * t + (S.v22 / D * m.1 ^ 2 -
          2 * (-S.v21 / D) * m.1 * (y - m.2) + S.v11 / D * (y - m.2) ^ 2))) := by
      funext t
      rw [hform]
      congr 3
      ring
    have e2 : (fun t => normal (mat S) m x t) = fun t => 1 / (2 * Real.pi * Real.sqrt D) * Real.exp (-(1 / 2) *
        (S.v11 / D * t ^ 2 + 2 * (-S.v21 / D * (x - m.1) - S.v11 / D * m.2) * t + (S.v11 / D * m.2 ^ 2 -
          2 * (-S.v21 / D) * m.2 * (x - m.1) + S.v22 / D * (x - m.1) ^ 2))) := by
      funext t
      rw [hform]
      congr 3
      ring
    have f1 := congrFun e1 x
    have f2 := congrFun e2 y
    rw [pixelValue, e1, e2, hasD2, hasD2, ← f1, ← f2]
    ring
  have hcnt : ∀ m : ℝ × ℝ, (toGaussian s st c p p.mean).xcen = m.1 → (toGaussian s st c p p.mean).ycen = m.2 →
      counts { secondOrder := sec, useDet := false } (toGaussian s st c p p.mean) x y =
      s.flux * st.G * c.amp * p.amp * (if sec then pixelValue (normal (mat S) m) x y else normal (mat S) m x y) := by
    intro m h1 h2
    have ha : (toGaussian s st c p p.mean).amp = s.flux * st.G * c.amp * p.amp * (1 / (2 * Real.pi * Real.sqrt D)) := by
      simp only [toGaussian, hS, hsq]
      have := Real.pi_ne_zero
      have := (Real.sqrt_pos.mpr hd).ne'
      field_simp
    have hxx : (toGaussian s st c p p.mean).fxx = S.v22 / D := by simp only [toGaussian, hS, fastInv, ← hD]
    have hyy : (toGaussian s st c p p.mean).fyy = S.v11 / D := by simp only [toGaussian, hS, fastInv, ← hD]
    have hxy : (toGaussian s st c p p.mean).fxy = -S.v21 / D := by simp only [toGaussian, hS, fastInv, ← hD]
    have hexp : Real.exp (-0.5 * ((x - m.1) * (S.v22 / D * (x - m.1) + -S.v21 / D * (y - m.2)) +
        (y - m.2) * (S.v11 / D * (y - m.2) + -S.v21 / D * (x - m.1)))) = Real.exp (-(1 / 2) *
        (S.v22 / D * (x - m.1) ^ 2 + 2 * (-S.v21 / D) * (x - m.1) * (y - m.2) + S.v11 / D * (y - m.2) ^ 2)) := by
      congr 1
      ring
    simp only [counts, hOf, rootDet, ha, hxx, hyy, hxy, h1, h2, hexp, Bool.false_eq_true, if_false]
    cases sec
    · simp only [Bool.false_eq_true, if_false, hform]
      ring
    · simp only [if_true, hlap, hform]
      ring
  dsimp only
  apply hcnt
  · simp only [toGaussian, M22.mulVec]
    ring
  · simp only [toGaussian, M22.mulVec]
    ring

/-- The shape parameters of a source: those of the source itself, or the ones that belong to its conformal shear. -/
def HasShape (s : Sources.Source ℝ) (q pa : ℝ) : Prop :=
  ((∀ b, s.cls ≠ .conformal b) → q = s.attr .q ∧ pa = s.attr .pa) ∧
  ((∃ b, s.cls = .conformal b) → q = Real.exp (-Real.sqrt (s.attr .ep ^ 2 + s.attr .ec ^ 2) / 2) ∧
    pa = Complex.arg ⟨s.attr .ep, s.attr .ec⟩ / 2)

lemma shape_eq {s : Sources.Source ℝ} {q pa : ℝ} (h : HasShape s q pa) : shapeOf s = (q, pa) := by
  obtain ⟨h1, h2⟩ := h
  unfold shapeOf
  cases hc : s.cls with
  | conformal b =>
    obtain ⟨e1, e2⟩ := h2 ⟨b, hc⟩
    rw [e1, e2]
    rfl
  | _ =>
    obtain ⟨e1, e2⟩ := h1 (by simp [hc])
    rw [e1, e2]

lemma flux_eq {s : Sources.Source ℝ} {flt : String} {i : Nat} {f : ℝ} (hlen : s.flux.length = s.filternames.length)
    (hi : s.filternames.idxOf? flt = some i) (hf : s.flux[i]? = some f) : fluxOf flt s = some f := by
  have hmem : flt ∈ s.filternames := by
    by_contra h
    rw [List.idxOf?_eq_none_iff.mpr h] at hi
    cases hi
  have hidx : s.filternames.idxOf flt = i := by
    rw [List.idxOf_eq_getD_idxOf?, hi]
    rfl
  rw [fluxOf, if_pos hmem]
  split
  · next h1 =>
    have : i < 1 := by
      rw [← h1]
      exact (List.getElem?_eq_some_iff.mp hf).1
    have : i = 0 := by omega
    subst this
    exact hf
  · rw [hidx]
    exact hf

lemma render_true (prof : Cls → List Prof) (o : Opts) (st : Stamp) (nx ny : Nat) (flt : String) (s : Sources.Source ℝ)
    (x : Slow.Source) (gs : List Full) (hx : read prof flt s = some x) (hg : gig x st = some gs) (hne : gs ≠ []) :
    render prof o true st nx ny flt s = some (gigImage o (grid nx ny) gs, some (useRows s
      ([Param.flux, .ra, .dec, .q, .pa, .sersic, .rh].map fun prm => gigRow o (grid nx ny) gs prm))) := by
  rw [render, hx]
  dsimp only
  rw [hg]
  dsimp only
  rw [computeGig, if_pos rfl, if_neg hne]
  rfl

/-- C129 (the image). A source rendered in one of its filters gives one value for each pixel, in the order of the
stamp's array flattened, and the value is the sum over the gaussians of the profile and of the PSF of flux, calibration
and amplitudes times the normal density of the convolved gaussian, integrated over the pixel to second order (or at the
centre, if asked for); this for every class of source. -/
theorem C129_image (prof : Cls → List Prof) (sec d : Bool) (st : Stamp) (nx ny : Nat) (flt : String)
    (s : Sources.Source ℝ) (har : st.arcsec = false) (hlen : s.flux.length = s.filternames.length) (i : Nat) (f : ℝ)
    (hi : s.filternames.idxOf? flt = some i) (hf : s.flux[i]? = some f) (q pa : ℝ) (hshape : HasShape s q pa)
    (hpf : prof s.cls ≠ []) (hps : st.psf ≠ [])
    (hsym : ∀ c ∈ prof s.cls, c.cov.v12 = c.cov.v21) (hsymp : ∀ p ∈ st.psf, p.cov.v12 = p.cov.v21)
    (hdet : ∀ c ∈ prof s.cls, ∀ p ∈ st.psf, 0 < (imageCov (mat st.D) (mat c.cov) (mat p.cov) q pa).det) :
    ∃ (im : List ℝ) (g : Option (List (List (Option ℝ)))),
      render prof { secondOrder := sec, useDet := false } d st nx ny flt s = some (im, g) ∧ g.isSome = d ∧
      im.length = nx * ny ∧ ∀ a b : Nat, a < nx → b < ny → im[a * ny + b]? = some (expected sec st
        ((prof s.cls).map fun c => (c.cov, c.A (s.attr .sersic) (s.attr .rhalf))) f (s.attr .ra) (s.attr .dec) q pa a b) := by
  have hread := flux_eq hlen hi hf
  have hsh := shape_eq hshape
  have hms : psfMeans st = some (st.psf.map (·.mean)) := by simp [psfMeans, har]
  obtain ⟨x, hx, hx1, hx2, hx3, hx4, hx5, hx6⟩ : ∃ x, read prof flt s = some x ∧ x.ra = s.attr .ra ∧
      x.dec = s.attr .dec ∧ x.q = q ∧ x.pa = pa ∧ x.flux = f ∧ x.comps = ((prof s.cls).map fun c =>
        (⟨c.cov, c.A (s.attr .sersic) (s.attr .rhalf), c.dN (s.attr .sersic) (s.attr .rhalf),
          c.dR (s.attr .sersic) (s.attr .rhalf)⟩ : Comp)) := by
    refine ⟨_, by rw [read, hread]; rfl, rfl, rfl, ?_, ?_, rfl, rfl⟩
    · rw [hsh]
    · rw [hsh]
  have hg : gig x st = some ((x.comps.map fun c => (st.psf.zip (st.psf.map (·.mean))).map fun pm =>
      (⟨toGaussian x st c pm.1 pm.2, derivs x st c pm.1, DerivsOk x st c pm.1⟩ : Full)).flatten) := by
    simp only [gig, hms]
  generalize hgs : (x.comps.map fun c => (st.psf.zip (st.psf.map (·.mean))).map fun pm =>
      (⟨toGaussian x st c pm.1 pm.2, derivs x st c pm.1, DerivsOk x st c pm.1⟩ : Full)).flatten = gs at hg
  have hne : gs ≠ [] := by
    obtain ⟨c0, cr, hc0⟩ := List.exists_cons_of_ne_nil hpf
    obtain ⟨p0, pr, hp0⟩ := List.exists_cons_of_ne_nil hps
    rw [← hgs, hx6, hc0, hp0]
    simp
  have hval : ∀ u v : ℝ, (gs.map fun f => counts { secondOrder := sec, useDet := false } f.g u v).sum = expected sec st
      ((prof s.cls).map fun c => (c.cov, c.A (s.attr .sersic) (s.attr .rhalf))) f (s.attr .ra) (s.attr .dec) q pa u v := by
    intro u v
    rw [← hgs, List.map_flatten, List.sum_flatten, List.map_map, List.map_map, hx6, List.map_map, expected, List.map_map]
    congr 1
    apply List.map_congr_left
    intro c hc
    simp only [Function.comp_apply, List.map_map]
    congr 1
    have hz : st.psf.zip (st.psf.map (·.mean)) = st.psf.map fun p => (p, p.mean) := by
      induction st.psf with
      | nil => rfl
      | cons a l ih => simp only [List.map_cons, List.zip_cons_cons, ih]
    rw [hz, List.map_map]
    apply List.map_congr_left
    intro p hp
    simp only [Function.comp_apply]
    have hd := hdet c hc p hp
    rw [counts_normal x st har _ p (hsym c hc) (hsymp p hp) ?_ sec u v]
    · rw [hx1, hx2, hx3, hx4, hx5]
    · have e := sigma_mat x st har (⟨c.cov, c.A (s.attr .sersic) (s.attr .rhalf), c.dN (s.attr .sersic) (s.attr .rhalf),
          c.dR (s.attr .sersic) (s.attr .rhalf)⟩ : Comp) p
      dsimp only at e
      rw [hx3, hx4] at e
      rw [← e] at hd
      rw [mat, Matrix.det_fin_two_of] at hd
      rw [fastDet]
      linarith
  have him : ∀ a b : Nat, a < nx → b < ny → (gigImage { secondOrder := sec, useDet := false } (grid nx ny) gs)[a * ny + b]? =
      some (expected sec st ((prof s.cls).map fun c => (c.cov, c.A (s.attr .sersic) (s.attr .rhalf))) f (s.attr .ra)
        (s.attr .dec) q pa a b) := by
    intro a b ha hb
    rw [image_eq, List.getElem?_map, grid_get nx ny a b ha hb, Option.map_some, hval]
  have hl : (gigImage { secondOrder := sec, useDet := false } (grid nx ny) gs).length = nx * ny := by
    rw [gigImage, List.length_map, grid_length]
  cases d
  · refine ⟨_, none, ?_, rfl, hl, him⟩
    rw [render, hx]
    dsimp only
    rw [hg]
    rfl
  · exact ⟨_, _, render_true prof _ st nx ny flt s x gs hx hg hne, rfl, hl, him⟩

/-! ## The gradients -/

/-- The parameters that the rows of the gradients stand for, after the flux. -/
def rowAttrs : Cls → List Attr
  | .conformal _ => [.ra, .dec, .ep, .ec, .sersic, .rhalf]
  | _ => [.ra, .dec, .q, .pa, .sersic, .rhalf]

/-- The source with parameter `r` changed: the flux in the filter for zero, then the others. -/
def change (flt : String) (s : Sources.Source ℝ) (r : Nat) (t : ℝ) : Sources.Source ℝ :=
  match r with
  | 0 => { s with flux := s.flux.set (s.filternames.idxOf flt) t }
  | r + 1 =>
    match (rowAttrs s.cls)[r]? with
    | some a => { s with attr := Function.update s.attr a t }
    | none => s

/-- The value of that parameter. -/
def valueOf (flt : String) (s : Sources.Source ℝ) (r : Nat) : Option ℝ :=
  match r with
  | 0 => s.flux[s.filternames.idxOf flt]?
  | r + 1 => ((rowAttrs s.cls)[r]?).map s.attr

/-- The value of a pixel of the rendered image. -/
noncomputable def pixelOf (prof : Cls → List Prof) (o : Opts) (st : Stamp) (nx ny : Nat) (flt : String) (k : Nat)
    (s : Sources.Source ℝ) : ℝ :=
  ((render prof o false st nx ny flt s).bind fun r => r.1[k]?).getD 0

lemma pixel_deriv (o : Opts) (x y : ℝ) (prm : Param) (curve : ℝ → List Full) (t₀ : ℝ) (hf : Follows prm curve t₀)
    (hok : ∀ f ∈ curve t₀, f.ok ∧ GradOk o f.g x y) :
    HasDerivAt (fun t => ((curve t).map fun f => counts o f.g x y).sum)
      (((curve t₀).map fun f => (f.J prm).dot (gradients o f.g x y)).sum) t₀ := by
  obtain ⟨ι, L, G, hG, hal⟩ := hf
  have hc : (fun t => ((curve t).map fun f => counts o f.g x y).sum) =
      fun t => (L.map fun l => counts o (G t l).g x y).sum := by
    funext t
    rw [hG, List.map_map]
    rfl
  rw [hc, hG, List.map_map]
  apply hasDerivAt_list_sum
  intro l hl
  have hmem : G t₀ l ∈ curve t₀ := by rw [hG]; exact List.mem_map_of_mem hl
  obtain ⟨ok1, ok2⟩ := hok _ hmem
  exact C64_counts o (hal l hl ok1) x y ok2

/-- The sum of the counts of a source at a point. -/
noncomputable def total (o : Opts) (st : Stamp) (x y : ℝ) (s : Slow.Source) : ℝ :=
  ((gigD s st).map fun f => counts o f.g x y).sum

lemma total_congr (o : Opts) (st : Stamp) (x y : ℝ) {s s' : Slow.Source}
    (h : (gigD s st).map (·.g) = (gigD s' st).map (·.g)) : total o st x y s = total o st x y s' := by
  have e : ∀ z : Slow.Source, total o st x y z = (((gigD z st).map (·.g)).map fun g => counts o g x y).sum := by
    intro z
    rw [total, List.map_map]
    rfl
  rw [e, e, h]

lemma pixelOf_eq (prof : Cls → List Prof) (o : Opts) (st : Stamp) (ms : List (ℝ × ℝ)) (hms : psfMeans st = some ms)
    (nx ny : Nat) (flt : String) (a b : Nat) (ha : a < nx) (hb : b < ny) (s : Sources.Source ℝ) (x : Slow.Source)
    (hx : read prof flt s = some x) : pixelOf prof o st nx ny flt (a * ny + b) s = total o st a b x := by
  obtain ⟨gs, hg⟩ : ∃ gs, gig x st = some gs := by
    rw [gig, hms]
    exact ⟨_, rfl⟩
  rw [pixelOf, render, hx]
  dsimp only
  rw [hg]
  dsimp only
  rw [computeGig, if_neg (by simp)]
  simp only [Option.map_some, Option.bind_some]
  rw [image_eq, List.getElem?_map, grid_get nx ny a b ha hb, total, gigD, hg]
  rfl

lemma total_deriv (o : Opts) (st : Stamp) (ms : List (ℝ × ℝ)) (hms : psfMeans st = some ms) (s : Slow.Source)
    (hr : Regular s st) (x y : ℝ) (prm : Param) (u : ℝ → Slow.Source) (t₀ : ℝ) (hm : Moves s prm u t₀)
    (hok : ∀ f ∈ gigD s st, f.ok ∧ GradOk o f.g x y) :
    HasDerivAt (fun t => total o st x y (u t)) (((gigD s st).map fun f => (f.J prm).dot (gradients o f.g x y)).sum) t₀ := by
  obtain ⟨h0, hf⟩ := follows_moves s st ms hms hr prm u t₀ hm
  have := pixel_deriv o x y prm (fun t => gigD (u t) st) t₀ hf (by rw [h0]; exact hok)
  beta_reduce at this
  rw [h0] at this
  exact this

lemma counts_diff (o : Opts) (g : ℝ × ℝ → Gauss) (z : ℝ × ℝ) (x y : ℝ) (ha : DifferentiableAt ℝ (fun w => (g w).amp) z)
    (hx : DifferentiableAt ℝ (fun w => (g w).xcen) z) (hy : DifferentiableAt ℝ (fun w => (g w).ycen) z)
    (hxx : DifferentiableAt ℝ (fun w => (g w).fxx) z) (hyy : DifferentiableAt ℝ (fun w => (g w).fyy) z)
    (hxy : DifferentiableAt ℝ (fun w => (g w).fxy) z)
    (hd : (g z).fxx * (g z).fyy - (g z).fxy * (g z).fxy ≠ 0) :
    DifferentiableAt ℝ (fun w => counts o (g w) x y) z := by
  have hR : DifferentiableAt ℝ (fun w => rootDet o (g w)) z := by
    unfold rootDet
    cases o.useDet
    · simp
    · simp only [if_true]
      exact DifferentiableAt.sqrt (by fun_prop) hd
  have hH : DifferentiableAt ℝ (fun w => hOf o (g w) x y) z := by
    unfold hOf
    cases o.secondOrder
    · simp
    · simp only [if_true]
      fun_prop
  simp only [counts]
  fun_prop

lemma gauss_diff (s : Slow.Source) (st : Stamp) (hq : s.q ≠ 0) (c : Comp) (p : PComp) (m : ℝ × ℝ)
    (hsym : (sigma s st c p).v12 = (sigma s st c p).v21) (hdet : 0 < fastDet (sigma s st c p)) (o : Opts) (x y : ℝ) :
    DifferentiableAt ℝ (fun w : ℝ × ℝ => counts o (toGaussian { s with q := w.1, pa := w.2 } st c p m) x y)
      (s.q, s.pa) := by
  have h1 : DifferentiableAt ℝ (fun w : ℝ × ℝ => 1 / w.1) (s.q, s.pa) :=
    by fun_prop (disch := exact hq)
  have hT : ∀ e ∈ [M22.v11, M22.v12, M22.v21, M22.v22],
      DifferentiableAt ℝ (fun w : ℝ × ℝ => e (tMatrix { s with q := w.1, pa := w.2 } st)) (s.q, s.pa) := by
    intro e he
    simp only [List.mem_cons, List.not_mem_nil, or_false] at he
    rcases he with rfl | rfl | rfl | rfl <;>
    · simp only [tMatrix, dotDot, rotationMatrix, scaleMatrix]
      fun_prop
  have t1 := hT M22.v11 (by simp)
  have t2 := hT M22.v12 (by simp)
  have t3 := hT M22.v21 (by simp)
  have t4 := hT M22.v22 (by simp)
  have hS : ∀ e ∈ [M22.v11, M22.v12, M22.v21, M22.v22],
      DifferentiableAt ℝ (fun w : ℝ × ℝ => e (sigma { s with q := w.1, pa := w.2 } st c p)) (s.q, s.pa) := by
    intro e he
    simp only [List.mem_cons, List.not_mem_nil, or_false] at he
    rcases he with rfl | rfl | rfl | rfl <;>
    · simp only [sigma, M22.mul, M22.add, M22.tr]
      fun_prop
  have s1 := hS M22.v11 (by simp)
  have s2 := hS M22.v12 (by simp)
  have s3 := hS M22.v21 (by simp)
  have s4 := hS M22.v22 (by simp)
  have hne : fastDet (sigma { s with q := (s.q, s.pa).1, pa := (s.q, s.pa).2 } st c p) ≠ 0 := hdet.ne'
  have hDet : DifferentiableAt ℝ (fun w : ℝ × ℝ => fastDet (sigma { s with q := w.1, pa := w.2 } st c p)) (s.q, s.pa) := by
    unfold fastDet
    fun_prop
  have f1 : DifferentiableAt ℝ (fun w : ℝ × ℝ => (fastInv (sigma { s with q := w.1, pa := w.2 } st c p)).v11) (s.q, s.pa) :=
    by simp only [fastInv]; fun_prop (disch := exact hne)
  have f2 : DifferentiableAt ℝ (fun w : ℝ × ℝ => (fastInv (sigma { s with q := w.1, pa := w.2 } st c p)).v12) (s.q, s.pa) :=
    by simp only [fastInv]; fun_prop (disch := exact hne)
  have f3 : DifferentiableAt ℝ (fun w : ℝ × ℝ => (fastInv (sigma { s with q := w.1, pa := w.2 } st c p)).v21) (s.q, s.pa) :=
    by simp only [fastInv]; fun_prop (disch := exact hne)
  have f4 : DifferentiableAt ℝ (fun w : ℝ × ℝ => (fastInv (sigma { s with q := w.1, pa := w.2 } st c p)).v22) (s.q, s.pa) :=
    by simp only [fastInv]; fun_prop (disch := exact hne)
  have hdetF : fastDet (fastInv (sigma s st c p)) ≠ 0 := by
    have hd := hdet.ne'
    generalize sigma s st c p = S at hd
    have : fastDet (fastInv S) = 1 / fastDet S := by
      simp only [fastDet, fastInv] at hd ⊢
      field_simp
    rw [this]
    exact one_div_ne_zero hd
  have hsF : (fastInv (sigma s st c p)).v12 = (fastInv (sigma s st c p)).v21 := by
    simp only [fastInv, hsym]
  apply counts_diff
  · simp only [toGaussian]
    have : DifferentiableAt ℝ (fun w : ℝ × ℝ =>
        Real.sqrt (fastDet (fastInv (sigma { s with q := w.1, pa := w.2 } st c p)))) (s.q, s.pa) := by
      apply DifferentiableAt.sqrt
      · simp only [fastDet]
        fun_prop
      · exact hdetF
    fun_prop
  · simp only [toGaussian]
    fun_prop
  · simp only [toGaussian]
    fun_prop
  · exact f1
  · exact f4
  · exact f3
  · simp only [fastDet, hsF] at hdetF
    exact hdetF

lemma list_diff {ι : Type} (L : List ι) (f : ι → ℝ × ℝ → ℝ) (z : ℝ × ℝ) (h : ∀ l ∈ L, DifferentiableAt ℝ (f l) z) :
    DifferentiableAt ℝ (fun w => (L.map fun l => f l w).sum) z := by
  induction L with
  | nil => simp
  | cons a L ih =>
    simp only [List.map_cons, List.sum_cons]
    exact (h a (by simp)).add (ih fun l hl => h l (by simp [hl]))

lemma total_diff (o : Opts) (st : Stamp) (ms : List (ℝ × ℝ)) (hms : psfMeans st = some ms) (s : Slow.Source)
    (hr : Regular s st) (x y : ℝ) :
    DifferentiableAt ℝ (fun w : ℝ × ℝ => total o st x y { s with q := w.1, pa := w.2 }) (s.q, s.pa) := by
  have e : (fun w : ℝ × ℝ => total o st x y { s with q := w.1, pa := w.2 }) = fun w : ℝ × ℝ =>
      ((s.comps.map fun c => (st.psf.zip ms).map fun pm => (c, pm)).flatten.map fun l : Comp × (PComp × (ℝ × ℝ)) =>
        counts o (toGaussian { s with q := w.1, pa := w.2 } st l.1 l.2.1 l.2.2) x y).sum := by
    funext w
    rw [total, gigD_eq _ st ms hms, List.map_flatten, List.map_flatten, List.map_map, List.map_map]
    congr 2
    apply List.map_congr_left
    intro c _
    simp only [Function.comp_apply, List.map_map]
    rfl
  rw [e]
  apply list_diff
  intro l hl
  obtain ⟨c, p, m⟩ := l
  simp only [List.mem_flatten, List.mem_map] at hl
  obtain ⟨_, ⟨c', hc, rfl⟩, hx⟩ := hl
  obtain ⟨⟨p', m'⟩, hz, hpm⟩ := List.mem_map.mp hx
  simp only [Prod.mk.injEq] at hpm
  obtain ⟨rfl, rfl, rfl⟩ := hpm
  have hp := (List.of_mem_zip hz).1
  refine gauss_diff s st hr.q c' p' m' ?_ (hr.det c' hc p' hp) o x y
  have h1 := psfCov_sym st p' (hr.symP p' hp)
  have h2 := hr.symS c' hc
  simp only [sigma, M22.add, M22.mul, M22.tr, h1, h2]
  ring

lemma total_period (o : Opts) (st : Stamp) (ms : List (ℝ × ℝ)) (hms : psfMeans st = some ms) (s : Slow.Source)
    (x y q pa : ℝ) : total o st x y { s with q := q, pa := pa + Real.pi } = total o st x y { s with q := q, pa := pa } := by
  have hs : ∀ (c : Comp) (p : PComp), sigma { s with q := q, pa := pa + Real.pi } st c p =
      sigma { s with q := q, pa := pa } st c p := by
    intro c p
    simp only [sigma, tMatrix, dotDot, rotationMatrix, scaleMatrix, M22.mul, M22.add, M22.tr, Real.cos_add_pi,
      Real.sin_add_pi, M22.mk.injEq]
    refine ⟨?_, ?_, ?_, ?_⟩ <;> ring
  apply total_congr
  rw [gigD_eq _ st ms hms, gigD_eq _ st ms hms, List.map_flatten, List.map_flatten, List.map_map, List.map_map]
  congr 1
  apply List.map_congr_left
  intro c _
  simp only [Function.comp_apply, List.map_map]
  apply List.map_congr_left
  intro pm _
  simp only [Function.comp_apply, toGaussian, hs]

lemma read_change (prof : Cls → List Prof) (hprof : ∀ c, ∀ p ∈ prof c, p.Right) (flt : String) (s : Sources.Source ℝ)
    (x : Slow.Source) (hx : read prof flt s = some x) (hlen : s.flux.length = s.filternames.length) (st : Stamp)
    (ms : List (ℝ × ℝ)) (hms : psfMeans st = some ms) (r : Nat) (prm : Param)
    (hprm : [Param.flux, .ra, .dec, .q, .pa, .sersic, .rh][r]? = some prm)
    (hno : (∃ b, s.cls = .conformal b) → r ≠ 3 ∧ r ≠ 4) (v : ℝ) (hv : valueOf flt s r = some v) :
    ∃ u y : ℝ → Slow.Source, Moves x prm u v ∧ (∀ t, read prof flt (change flt s r t) = some (y t)) ∧
      ∀ t, (gigD (y t) st).map (·.g) = (gigD (u t) st).map (·.g) := by
  obtain ⟨f, hf, rfl⟩ := Option.map_eq_some_iff.mp hx
  have hmem : flt ∈ s.filternames := by
    by_contra h
    rw [fluxOf, if_neg h] at hf
    cases hf
  have hidx : s.filternames.idxOf flt < s.flux.length := by
    rw [hlen]
    exact List.idxOf_lt_length_of_mem hmem
  have hff : s.flux[s.filternames.idxOf flt]? = some f := by
    rw [fluxOf, if_pos hmem] at hf
    split at hf
    · next h1 =>
      have : s.filternames.idxOf flt = 0 := by omega
      rw [this]
      exact hf
    · exact hf
  have hfl : ∀ a t, fluxOf flt { s with attr := Function.update s.attr a t } = some f := fun a t => hf
  have hsh : ∀ a t, (a = .ra ∨ a = .dec ∨ a = .sersic ∨ a = .rhalf) →
      shapeOf { s with attr := Function.update s.attr a t } = shapeOf s := by
    rintro a t (rfl | rfl | rfl | rfl) <;> simp [shapeOf]
  have hrow : ∀ r a, (rowAttrs s.cls)[r]? = some a → change flt s (r + 1) = fun t =>
      { s with attr := Function.update s.attr a t } := by
    intro r a h
    funext t
    simp only [change, h]
  have hval : ∀ r a, (rowAttrs s.cls)[r]? = some a → valueOf flt s (r + 1) = some (s.attr a) := by
    intro r a h
    simp only [valueOf, h, Option.map_some]
  have hra : ∀ (k : Nat) (a : Attr), (k, a) ∈ [(0, Attr.ra), (1, .dec), (4, .sersic), (5, .rhalf)] →
      (rowAttrs s.cls)[k]? = some a := by
    intro k a h
    simp only [List.mem_cons, Prod.mk.injEq, List.not_mem_nil, or_false] at h
    rcases h with ⟨rfl, rfl⟩ | ⟨rfl, rfl⟩ | ⟨rfl, rfl⟩ | ⟨rfl, rfl⟩ <;> cases s.cls <;> rfl
  have hqp : (∀ b, s.cls ≠ .conformal b) → rowAttrs s.cls = [.ra, .dec, .q, .pa, .sersic, .rhalf] ∧
      ∀ A : Attr → ℝ, shapeOf { s with attr := A } = (A .q, A .pa) := by
    intro h
    cases hc : s.cls with
    | conformal b => exact absurd hc (h b)
    | _ =>
      refine ⟨rfl, fun A => ?_⟩
      simp only [shapeOf, hc]
  have hamp : ∀ (w : Slow.Source) (z : Slow.Source), w.ra = z.ra → w.dec = z.dec → w.q = z.q → w.pa = z.pa →
      w.flux = z.flux → w.comps.map (fun c => (c.cov, c.amp)) = z.comps.map (fun c => (c.cov, c.amp)) →
      (gigD w st).map (·.g) = (gigD z st).map (·.g) := fun w z h1 h2 h3 h4 h5 h6 =>
    Multi.gig_g st ms hms w z h1 h2 h3 h4 h5 h6
  match r, hprm with
  | 0, hprm =>
    simp only [List.getElem?_cons_zero, Option.some.injEq] at hprm
    subst hprm
    simp only [valueOf] at hv
    have hvf : v = f := by
      rw [hv] at hff
      exact Option.some.inj hff
    refine ⟨_, _, ⟨hvf, fun t => rfl⟩, fun t => ?_, fun t => rfl⟩
    have : fluxOf flt (change flt s 0 t) = some t := by
      simp only [fluxOf, change, if_pos hmem, List.length_set]
      split
      · next h1 =>
        have h0 : s.filternames.idxOf flt = 0 := by omega
        rw [h0] at hidx ⊢
        rw [List.getElem?_set_self hidx]
      · rw [List.getElem?_set_self hidx]
    rw [read, this]
    rfl
  | 1, hprm =>
    simp only [List.getElem?_cons_succ, List.getElem?_cons_zero, Option.some.injEq] at hprm
    subst hprm
    have h0 := hra 0 .ra (by simp)
    rw [hval 0 _ h0] at hv
    rw [hrow 0 _ h0]
    refine ⟨_, _, ⟨(Option.some.inj hv).symm, fun t => rfl⟩, fun t => ?_, fun t => rfl⟩
    rw [read, hfl, hsh _ _ (by simp)]
    simp
  | 2, hprm =>
    simp only [List.getElem?_cons_succ, List.getElem?_cons_zero, Option.some.injEq] at hprm
    subst hprm
    have h0 := hra 1 .dec (by simp)
    rw [hval 1 _ h0] at hv
    rw [hrow 1 _ h0]
    refine ⟨_, _, ⟨(Option.some.inj hv).symm, fun t => rfl⟩, fun t => ?_, fun t => rfl⟩
    rw [read, hfl, hsh _ _ (by simp)]
    simp
  | 3, hprm =>
    simp only [List.getElem?_cons_succ, List.getElem?_cons_zero, Option.some.injEq] at hprm
    subst hprm
    obtain ⟨h0, h1⟩ := hqp (fun b hb => (hno ⟨b, hb⟩).1 rfl)
    have h0' : (rowAttrs s.cls)[2]? = some .q := by rw [h0]; rfl
    rw [hval 2 _ h0'] at hv
    rw [hrow 2 _ h0']
    have hs0 := h1 s.attr
    refine ⟨_, _, ⟨?_, fun t => rfl⟩, fun t => ?_, fun t => rfl⟩
    · have : shapeOf s = (s.attr .q, s.attr .pa) := hs0
      rw [this]
      exact (Option.some.inj hv).symm
    · rw [read, hfl, h1]
      have : shapeOf s = (s.attr .q, s.attr .pa) := hs0
      rw [this]
      simp
  | 4, hprm =>
    simp only [List.getElem?_cons_succ, List.getElem?_cons_zero, Option.some.injEq] at hprm
    subst hprm
    obtain ⟨h0, h1⟩ := hqp (fun b hb => (hno ⟨b, hb⟩).2 rfl)
    have h0' : (rowAttrs s.cls)[3]? = some .pa := by rw [h0]; rfl
    rw [hval 3 _ h0'] at hv
    rw [hrow 3 _ h0']
    have hs0 := h1 s.attr
    refine ⟨_, _, ⟨?_, fun t => rfl⟩, fun t => ?_, fun t => rfl⟩
    · have : shapeOf s = (s.attr .q, s.attr .pa) := hs0
      rw [this]
      exact (Option.some.inj hv).symm
    · rw [read, hfl, h1]
      have : shapeOf s = (s.attr .q, s.attr .pa) := hs0
      rw [this]
      simp
  | 5, hprm =>
    simp only [List.getElem?_cons_succ, List.getElem?_cons_zero, Option.some.injEq] at hprm
    subst hprm
    have h0 := hra 4 .sersic (by simp)
    rw [hval 4 _ h0] at hv
    rw [hrow 4 _ h0]
    have hv' := Option.some.inj hv
    refine ⟨fun t => Slow.Source.withAmps _ fun k => (((prof s.cls)[k]?).map fun c => c.A t (s.attr .rhalf)).getD 0, _,
      ⟨fun k t => (((prof s.cls)[k]?).map fun c => c.A t (s.attr .rhalf)).getD 0, fun t => rfl, ?_⟩,
      fun t => by rw [read, hfl, hsh _ _ (by simp)]; rfl, fun t => ?_⟩
    · intro k c hc
      simp only [List.getElem?_map] at hc
      obtain ⟨c0, hc0, rfl⟩ := Option.map_eq_some_iff.mp hc
      simp only [hc0, Option.map_some, Option.getD_some]
      rw [← hv']
      exact ⟨rfl, (hprof _ c0 (List.mem_of_getElem? hc0) _ _).1⟩
    · apply hamp
      · simp [Slow.Source.withAmps]
      · simp [Slow.Source.withAmps]
      · simp [Slow.Source.withAmps]
      · simp [Slow.Source.withAmps]
      · simp [Slow.Source.withAmps]
      simp only [Slow.Source.withAmps, List.map_map]
      apply List.ext_getElem?
      intro k
      simp only [List.getElem?_map, List.getElem?_mapIdx]
      cases (prof s.cls)[k]? with
      | none => rfl
      | some c => simp
  | 6, hprm =>
    simp only [List.getElem?_cons_succ, List.getElem?_cons_zero, Option.some.injEq] at hprm
    subst hprm
    have h0 := hra 5 .rhalf (by simp)
    rw [hval 5 _ h0] at hv
    rw [hrow 5 _ h0]
    have hv' := Option.some.inj hv
    refine ⟨fun t => Slow.Source.withAmps _ fun k => (((prof s.cls)[k]?).map fun c => c.A (s.attr .sersic) t).getD 0, _,
      ⟨fun k t => (((prof s.cls)[k]?).map fun c => c.A (s.attr .sersic) t).getD 0, fun t => rfl, ?_⟩,
      fun t => by rw [read, hfl, hsh _ _ (by simp)]; rfl, fun t => ?_⟩
    · intro k c hc
      simp only [List.getElem?_map] at hc
      obtain ⟨c0, hc0, rfl⟩ := Option.map_eq_some_iff.mp hc
      simp only [hc0, Option.map_some, Option.getD_some]
      rw [← hv']
      exact ⟨rfl, (hprof _ c0 (List.mem_of_getElem? hc0) _ _).2⟩
    · apply hamp
      · simp [Slow.Source.withAmps]
      · simp [Slow.Source.withAmps]
      · simp [Slow.Source.withAmps]
      · simp [Slow.Source.withAmps]
      · simp [Slow.Source.withAmps]
      simp only [Slow.Source.withAmps, List.map_map]
      apply List.ext_getElem?
      intro k
      simp only [List.getElem?_map, List.getElem?_mapIdx]
      cases (prof s.cls)[k]? with
      | none => rfl
      | some c => simp
  | k + 7, hprm => simp at hprm

lemma gigRow_get (o : Opts) (nx ny a b : Nat) (ha : a < nx) (hb : b < ny) (gs : List Full) (prm : Param) (g : Option ℝ)
    (h : (gigRow o (grid nx ny) gs prm)[a * ny + b]? = some g) :
    ((∀ f ∈ gs, f.ok ∧ GradOk o f.g a b) → g = some (gs.map fun f => (f.J prm).dot (gradients o f.g a b)).sum) ∧
    (¬(∀ f ∈ gs, f.ok ∧ GradOk o f.g a b) → g = none) := by
  classical
  rw [gigRow, List.getElem?_map, grid_get nx ny a b ha hb, Option.map_some, Option.some.injEq] at h
  subst h
  constructor
  · intro hc
    rw [if_pos hc, foldl_add (fun f : Full => (f.J prm).dot (gradients o f.g a b)), zero_add]
  · intro hc
    rw [if_neg hc]

lemma render_inv {prof : Cls → List Prof} {o : Opts} {st : Stamp} {nx ny : Nat} {flt : String} {s : Sources.Source ℝ}
    {im : List ℝ} {G : List (List (Option ℝ))} (h : render prof o true st nx ny flt s = some (im, some G)) :
    ∃ x gs, read prof flt s = some x ∧ gig x st = some gs ∧ G = useRows s
      ([Param.flux, .ra, .dec, .q, .pa, .sersic, .rh].map fun prm => gigRow o (grid nx ny) gs prm) := by
  rw [render] at h
  cases hx : read prof flt s with
  | none => rw [hx] at h; cases h
  | some x =>
    rw [hx] at h
    dsimp only at h
    cases hg : gig x st with
    | none => rw [hg] at h; cases h
    | some gs =>
      rw [hg] at h
      dsimp only at h
      rw [computeGig, if_pos rfl] at h
      split at h
      · cases h
      · simp only [Option.map_some, Option.some.injEq, Prod.mk.injEq] at h
        exact ⟨x, gs, rfl, hg, h.2.symm⟩

lemma plain_gradient (prof : Cls → List Prof) (hprof : ∀ c, ∀ p ∈ prof c, p.Right) (o : Opts) (st : Stamp)
    (ms : List (ℝ × ℝ)) (hms : psfMeans st = some ms) (nx ny : Nat) (flt : String) (s : Sources.Source ℝ)
    (hlen : s.flux.length = s.filternames.length) (x : Slow.Source) (hx : read prof flt s = some x)
    (hreg : Regular x st) (r : Nat) (prm : Param)
    (hprm : [Param.flux, .ra, .dec, .q, .pa, .sersic, .rh][r]? = some prm)
    (hno : (∃ b, s.cls = .conformal b) → r ≠ 3 ∧ r ≠ 4) (v : ℝ) (hv : valueOf flt s r = some v)
    (a b : Nat) (ha : a < nx) (hb : b < ny) (g : ℝ)
    (hg : (gigRow o (grid nx ny) (gigD x st) prm)[a * ny + b]? = some (some g)) :
    HasDerivAt (fun t => pixelOf prof o st nx ny flt (a * ny + b) (change flt s r t)) g v := by
  obtain ⟨h1, h2⟩ := gigRow_get o nx ny a b ha hb (gigD x st) prm (some g) hg
  have hok : ∀ f ∈ gigD x st, f.ok ∧ GradOk o f.g a b := by
    by_contra h
    cases h2 h
  have hgv := Option.some.inj (h1 hok)
  obtain ⟨u, y, hm, hy, hgg⟩ := read_change prof hprof flt s x hx hlen st ms hms r prm hprm hno v hv
  have := total_deriv o st ms hms x hreg a b prm u v hm hok
  rw [← hgv] at this
  refine hdc this (fun t => ?_) rfl
  rw [pixelOf_eq prof o st ms hms nx ny flt a b ha hb _ _ (hy t)]
  exact total_congr o st a b (hgg t)

lemma shear_gradient (prof : Cls → List Prof) (o : Opts) (st : Stamp)
    (ms : List (ℝ × ℝ)) (hms : psfMeans st = some ms) (nx ny : Nat) (flt : String) (s : Sources.Source ℝ)
    (x : Slow.Source) (hx : read prof flt s = some x)
    (hreg : Regular x st) (fr : Bool) (hcls : s.cls = .conformal fr) (a b : Nat) (ha : a < nx) (hb : b < ny)
    (d e : Option ℝ) (hd : (gigRow o (grid nx ny) (gigD x st) .q)[a * ny + b]? = some d)
    (he : (gigRow o (grid nx ny) (gigD x st) .pa)[a * ny + b]? = some e) (g1 g2 : ℝ)
    (h1 : toShear (s.attr .ep) (s.attr .ec) d e = (some g1, some g2)) :
    HasDerivAt (fun t => pixelOf prof o st nx ny flt (a * ny + b) (change flt s 3 t)) g1 (s.attr .ep) ∧
    HasDerivAt (fun t => pixelOf prof o st nx ny flt (a * ny + b) (change flt s 4 t)) g2 (s.attr .ec) := by
  obtain ⟨d1, d2⟩ := gigRow_get o nx ny a b ha hb (gigD x st) .q d hd
  obtain ⟨e1, e2⟩ := gigRow_get o nx ny a b ha hb (gigD x st) .pa e he
  have hok : ∀ f ∈ gigD x st, f.ok ∧ GradOk o f.g a b := by
    by_contra h
    rw [d2 h] at h1
    simp [toShear] at h1
  rw [d1 hok, e1 hok, toShear] at h1
  split at h1
  · simp at h1
  next hlog =>
  have hne : s.attr .ep ≠ 0 ∨ s.attr .ec ≠ 0 := by
    by_contra h
    push Not at h
    apply hlog
    rw [h.1, h.2]
    exact Shear.C54_round_singular.2
  simp only [Prod.mk.injEq, Option.some.injEq] at h1
  have hxq : x.q = qOf (s.attr .ep) (s.attr .ec) ∧ x.pa = paOf (s.attr .ep) (s.attr .ec) := by
    obtain ⟨f, -, rfl⟩ := Option.map_eq_some_iff.mp hx
    simp only [shapeOf, hcls, and_self]
  obtain ⟨F', hF⟩ := total_diff o st ms hms x hreg a b
  have pq : F' (1, 0) = ((gigD x st).map fun f => (f.J .q).dot (gradients o f.g a b)).sum := by
    have k1 : HasDerivAt (fun t : ℝ => (t, x.pa)) ((1 : ℝ), (0 : ℝ)) x.q :=
      (hasDerivAt_id x.q).prodMk (hasDerivAt_const x.q x.pa)
    have k2 := HasFDerivAt.comp_hasDerivAt x.q hF k1
    have k3 := total_deriv o st ms hms x hreg a b .q (fun t => { x with q := t }) x.q ⟨rfl, fun t => rfl⟩ hok
    exact k2.unique k3
  have pp : F' (0, 1) = ((gigD x st).map fun f => (f.J .pa).dot (gradients o f.g a b)).sum := by
    have k1 : HasDerivAt (fun t : ℝ => (x.q, t)) ((0 : ℝ), (1 : ℝ)) x.pa :=
      (hasDerivAt_const x.pa x.q).prodMk (hasDerivAt_id x.pa)
    have k2 := HasFDerivAt.comp_hasDerivAt x.pa hF k1
    have k3 := total_deriv o st ms hms x hreg a b .pa (fun t => { x with pa := t }) x.pa ⟨rfl, fun t => rfl⟩ hok
    exact k2.unique k3
  rw [hxq.1, hxq.2] at hF
  obtain ⟨c1, c2⟩ := Shear.C54_gradient (fun w : ℝ × ℝ => total o st a b { x with q := w.1, pa := w.2 })
    (fun q p => total_period o st ms hms x a b q p) (s.attr .ep) (s.attr .ec) hne F' hF
  rw [pq, pp, h1.1] at c1
  rw [pq, pp, h1.2] at c2
  constructor
  · refine hdc c1 (fun t => ?_) rfl
    apply pixelOf_eq prof o st ms hms nx ny flt a b ha hb
    obtain ⟨f, hf, rfl⟩ := Option.map_eq_some_iff.mp hx
    have hc : change flt s 3 t = { s with attr := Function.update s.attr .ep t } := by
      simp only [change, rowAttrs, hcls, List.getElem?_cons_succ, List.getElem?_cons_zero]
    have hfl : fluxOf flt { s with attr := Function.update s.attr .ep t } = some f := hf
    rw [hc, read, hfl]
    simp [shapeOf, hcls]
  · refine hdc c2 (fun t => ?_) rfl
    apply pixelOf_eq prof o st ms hms nx ny flt a b ha hb
    obtain ⟨f, hf, rfl⟩ := Option.map_eq_some_iff.mp hx
    have hc : change flt s 4 t = { s with attr := Function.update s.attr .ec t } := by
      simp only [change, rowAttrs, hcls, List.getElem?_cons_succ, List.getElem?_cons_zero]
    have hfl : fluxOf flt { s with attr := Function.update s.attr .ec t } = some f := hf
    rw [hc, read, hfl]
    simp [shapeOf, hcls]

/-- C129 (gradients). Every number in row `r` of the gradients is the derivative of the pixel's value by parameter `r` of
the source: the flux in the stamp's filter, position, the two shape parameters of its class and the profile. -/
theorem C129_gradient (prof : Cls → List Prof) (hprof : ∀ c, ∀ p ∈ prof c, p.Right) (o : Opts) (st : Stamp)
    (ms : List (ℝ × ℝ)) (hms : psfMeans st = some ms) (nx ny : Nat) (flt : String) (s : Sources.Source ℝ)
    (hlen : s.flux.length = s.filternames.length) (hreg : ∀ x, read prof flt s = some x → Regular x st)
    (im : List ℝ) (G : List (List (Option ℝ))) (hren : render prof o true st nx ny flt s = some (im, some G))
    (r a b : Nat) (ha : a < nx) (hb : b < ny) (row : List (Option ℝ)) (hrow : G[r]? = some row) (g : ℝ)
    (hg : row[a * ny + b]? = some (some g)) :
    ∃ v, valueOf flt s r = some v ∧
      HasDerivAt (fun t => pixelOf prof o st nx ny flt (a * ny + b) (change flt s r t)) g v := by
  obtain ⟨x, gs, hx, hgig, rfl⟩ := render_inv hren
  have hgs : gs = gigD x st := by rw [gigD, hgig]; rfl
  subst hgs
  have hreg := hreg x hx
  -- every row has a value
  have hval : ∀ r < 7, ∃ v, valueOf flt s r = some v := by
    intro r hr
    match r, hr with
    | 0, _ =>
      obtain ⟨f, hf, -⟩ := Option.map_eq_some_iff.mp hx
      have hmem : flt ∈ s.filternames := by
        by_contra h
        rw [fluxOf, if_neg h] at hf
        cases hf
      have hidx : s.filternames.idxOf flt < s.flux.length := by
        rw [hlen]
        exact List.idxOf_lt_length_of_mem hmem
      exact ⟨s.flux[s.filternames.idxOf flt], List.getElem?_eq_getElem hidx⟩
    | r + 1, hr =>
      have hl : (rowAttrs s.cls).length = 6 := by cases s.cls <;> rfl
      refine ⟨s.attr ((rowAttrs s.cls)[r]'(by omega)), ?_⟩
      simp only [valueOf]
      rw [List.getElem?_eq_getElem (by omega)]
      rfl
  have hplain : ∀ r prm, [Param.flux, .ra, .dec, .q, .pa, .sersic, .rh][r]? = some prm →
      ((∃ b, s.cls = .conformal b) → r ≠ 3 ∧ r ≠ 4) →
      (gigRow o (grid nx ny) (gigD x st) prm)[a * ny + b]? = some (some g) → ∃ v, valueOf flt s r = some v ∧
      HasDerivAt (fun t => pixelOf prof o st nx ny flt (a * ny + b) (change flt s r t)) g v := by
    intro r prm hprm hno h
    have hr : r < 7 := (List.getElem?_eq_some_iff.mp hprm).1
    obtain ⟨v, hv⟩ := hval r hr
    exact ⟨v, hv, plain_gradient prof hprof o st ms hms nx ny flt s hlen x hx hreg r prm hprm hno v hv a b ha hb g h⟩
  by_cases hcon : ∃ fr, s.cls = .conformal fr
  · obtain ⟨fr, hcls⟩ := hcon
    rw [useRows] at hrow
    simp only [hcls, List.map_cons, List.map_nil, shearRows] at hrow
    rw [List.getElem?_take] at hrow
    split at hrow
    swap
    · cases hrow
    have hlen' : ∀ prm, ∃ d, (gigRow o (grid nx ny) (gigD x st) prm)[a * ny + b]? = some d := fun prm =>
      ⟨_, List.getElem?_eq_getElem (by
        rw [gigRow, List.length_map, grid_length]
        nlinarith)⟩
    obtain ⟨dq, hdq⟩ := hlen' .q
    obtain ⟨dp, hdp⟩ := hlen' .pa
    have hzip : (List.zipWith (toShear (s.attr .ep) (s.attr .ec)) (gigRow o (grid nx ny) (gigD x st) .q)
        (gigRow o (grid nx ny) (gigD x st) .pa))[a * ny + b]? =
        some (toShear (s.attr .ep) (s.attr .ec) dq dp) := by
      rw [List.getElem?_zipWith, hdq, hdp]
    have hsh : ∀ d e : Option ℝ, ∀ g : ℝ, ((toShear (s.attr .ep) (s.attr .ec) d e).1 = some g ∨
        (toShear (s.attr .ep) (s.attr .ec) d e).2 = some g) →
        ∃ g1 g2, toShear (s.attr .ep) (s.attr .ec) d e = (some g1, some g2) := by
      intro d e g h
      rcases d with _ | d <;> rcases e with _ | e <;> simp only [toShear] at h ⊢ <;> first
        | (simp at h; done)
        | (split at h
           · simp at h
           · rename_i hl
             rw [if_neg hl]
             exact ⟨_, _, rfl⟩)
    match r with
    | 0 => exact hplain 0 .flux rfl (fun _ => by omega) (by cases hrow; exact hg)
    | 1 => exact hplain 1 .ra rfl (fun _ => by omega) (by cases hrow; exact hg)
    | 2 => exact hplain 2 .dec rfl (fun _ => by omega) (by cases hrow; exact hg)
    | 3 =>
      simp only [List.getElem?_cons_succ, List.getElem?_cons_zero, Option.some.injEq] at hrow
      subst hrow
      rw [List.getElem?_map, hzip, Option.map_some, Option.some.injEq] at hg
      obtain ⟨g1, g2, h12⟩ := hsh _ _ g (Or.inl hg)
      have := (shear_gradient prof o st ms hms nx ny flt s x hx hreg fr hcls a b ha hb _ _ hdq hdp
        g1 g2 h12).1
      rw [h12] at hg
      cases hg
      exact ⟨s.attr .ep, by simp [valueOf, rowAttrs, hcls], this⟩
    | 4 =>
      simp only [List.getElem?_cons_succ, List.getElem?_cons_zero, Option.some.injEq] at hrow
      subst hrow
      rw [List.getElem?_map, hzip, Option.map_some, Option.some.injEq] at hg
      obtain ⟨g1, g2, h12⟩ := hsh _ _ g (Or.inr hg)
      have := (shear_gradient prof o st ms hms nx ny flt s x hx hreg fr hcls a b ha hb _ _ hdq hdp
        g1 g2 h12).2
      rw [h12] at hg
      cases hg
      exact ⟨s.attr .ec, by simp [valueOf, rowAttrs, hcls], this⟩
    | 5 => exact hplain 5 .sersic rfl (fun _ => by omega) (by cases hrow; exact hg)
    | 6 => exact hplain 6 .rh rfl (fun _ => by omega) (by cases hrow; exact hg)
    | r + 7 => cases hrow
  · have hu : useRows s ([Param.flux, .ra, .dec, .q, .pa, .sersic, .rh].map fun prm => gigRow o (grid nx ny) (gigD x st) prm) =
        ([Param.flux, .ra, .dec, .q, .pa, .sersic, .rh].map fun prm => gigRow o (grid nx ny) (gigD x st) prm).take
          (1 + npos + nshape s.cls) := by
      rw [useRows]
      cases hc : s.cls with
      | conformal fr => exact absurd ⟨fr, hc⟩ hcon
      | _ => rfl
    rw [hu, List.getElem?_take] at hrow
    split at hrow
    · rw [List.getElem?_map] at hrow
      obtain ⟨prm, hprm, rfl⟩ := Option.map_eq_some_iff.mp hrow
      exact hplain r prm hprm (fun h => absurd h hcon) hg
    · cases hrow

lemma rows_spec (o : Opts) (nx ny : Nat) (gs : List Full) (s : Sources.Source ℝ) (r : Nat) (row : List (Option ℝ))
    (h : (useRows s ([Param.flux, .ra, .dec, .q, .pa, .sersic, .rh].map fun prm =>
      gigRow o (grid nx ny) gs prm))[r]? = some row) :
    (∃ prm, row = gigRow o (grid nx ny) gs prm) ∨ ((∃ b, s.cls = .conformal b) ∧
      (row = (List.zipWith (toShear (s.attr .ep) (s.attr .ec)) (gigRow o (grid nx ny) gs .q)
        (gigRow o (grid nx ny) gs .pa)).map Prod.fst ∨
      row = (List.zipWith (toShear (s.attr .ep) (s.attr .ec)) (gigRow o (grid nx ny) gs .q)
        (gigRow o (grid nx ny) gs .pa)).map Prod.snd)) := by
  have hmem := List.mem_of_getElem? h
  rw [useRows] at hmem
  have hpl : ∀ n, row ∈ ([Param.flux, .ra, .dec, .q, .pa, .sersic, .rh].map fun prm =>
      gigRow o (grid nx ny) gs prm).take n → ∃ prm, row = gigRow o (grid nx ny) gs prm := by
    intro n hn
    obtain ⟨prm, -, rfl⟩ := List.mem_map.mp (List.mem_of_mem_take hn)
    exact ⟨prm, rfl⟩
  cases hc : s.cls with
  | conformal b =>
    simp only [hc] at hmem
    have := List.mem_of_mem_take hmem
    simp only [List.map_cons, List.map_nil, shearRows, List.mem_cons, List.not_mem_nil, or_false] at this
    rcases this with h | h | h | h | h | h | h
    · exact Or.inl ⟨_, h⟩
    · exact Or.inl ⟨_, h⟩
    · exact Or.inl ⟨_, h⟩
    · exact Or.inr ⟨⟨b, rfl⟩, Or.inl h⟩
    · exact Or.inr ⟨⟨b, rfl⟩, Or.inr h⟩
    · exact Or.inl ⟨_, h⟩
    · exact Or.inl ⟨_, h⟩
  | base => simp only [hc] at hmem; exact Or.inl (hpl _ hmem)
  | star => simp only [hc] at hmem; exact Or.inl (hpl _ hmem)
  | simple => simp only [hc] at hmem; exact Or.inl (hpl _ hmem)
  | galaxy b => simp only [hc] at hmem; exact Or.inl (hpl _ hmem)

/-- C129 (rows). The gradients have one row for the flux and one for each other parameter of the class (three for a
star, five with a fixed profile, seven with a free one), each with one entry for each pixel. -/
theorem C129_rows (prof : Cls → List Prof) (o : Opts) (st : Stamp) (nx ny : Nat) (flt : String) (s : Sources.Source ℝ)
    (im : List ℝ) (G : List (List (Option ℝ))) (hren : render prof o true st nx ny flt s = some (im, some G)) :
    (s.cls = .star → G.length = 3) ∧
    (s.cls = .base ∨ s.cls = .simple ∨ s.cls = .galaxy false ∨ s.cls = .conformal false → G.length = 5) ∧
    (s.cls = .galaxy true ∨ s.cls = .conformal true → G.length = 7) ∧
    (s.cls ≠ .base → G.length = 1 + (Sources.vecAttrs s.cls).length) ∧
    (∀ row ∈ G, row.length = nx * ny) := by
  obtain ⟨x, gs, hx, hgig, rfl⟩ := render_inv hren
  have hl : (useRows s ([Param.flux, .ra, .dec, .q, .pa, .sersic, .rh].map fun prm => gigRow o (grid nx ny) gs prm)).length
      = 3 + nshape s.cls := by
    rw [useRows]
    cases hc : s.cls with
    | conformal b => cases b <;> rfl
    | galaxy b => cases b <;> rfl
    | _ => rfl
  rw [hl]
  refine ⟨fun h => by rw [h]; rfl, ?_, ?_, ?_, ?_⟩
  · rintro (h | h | h | h) <;> rw [h] <;> rfl
  · rintro (h | h) <;> rw [h] <;> rfl
  · intro h
    cases hc : s.cls with
    | base => exact absurd hc h
    | conformal b => cases b <;> rfl
    | galaxy b => cases b <;> rfl
    | _ => rfl
  · intro row hrow
    obtain ⟨r, hr⟩ := List.mem_iff_getElem?.mp hrow
    have hg : ∀ prm, (gigRow o (grid nx ny) gs prm).length = nx * ny := fun prm => by
      rw [gigRow, List.length_map, grid_length]
    rcases rows_spec o nx ny gs s r row hr with ⟨prm, rfl⟩ | ⟨-, rfl | rfl⟩
    · exact hg prm
    · rw [List.length_map, List.length_zipWith, hg, hg, min_self]
    · rw [List.length_map, List.length_zipWith, hg, hg, min_self]

/-- C129 (no numbers). If the source has no flux in the filter of the stamp, no entry of the gradients is a number, also
in the row of the flux, although every derivative exists. -/
theorem C129_no_flux (prof : Cls → List Prof) (o : Opts) (st : Stamp) (nx ny : Nat) (flt : String)
    (s : Sources.Source ℝ) (hlen : s.flux.length = s.filternames.length)
    (hf : s.flux[s.filternames.idxOf flt]? = some 0) (im : List ℝ) (G : List (List (Option ℝ)))
    (hren : render prof o true st nx ny flt s = some (im, some G)) :
    ∀ row ∈ G, ∀ e ∈ row, e = none := by
  have hgs0 : ∃ x gs, read prof flt s = some x ∧ gig x st = some gs ∧ gs ≠ [] := by
    rw [render] at hren
    cases hx : read prof flt s with
    | none => rw [hx] at hren; cases hren
    | some x =>
      rw [hx] at hren
      dsimp only at hren
      cases hg : gig x st with
      | none => rw [hg] at hren; cases hren
      | some gs =>
        rw [hg] at hren
        dsimp only at hren
        rw [computeGig, if_pos rfl] at hren
        split at hren
        · cases hren
        · exact ⟨x, gs, rfl, hg, by assumption⟩
  obtain ⟨x, gs, hx, hgig, rfl⟩ := render_inv hren
  obtain ⟨x', gs', hx', hgig', hne⟩ := hgs0
  obtain rfl : x = x' := Option.some.inj (hx.symm.trans hx')
  obtain rfl : gs = gs' := Option.some.inj (hgig.symm.trans hgig')
  have hflux : x.flux = 0 := by
    obtain ⟨f, hfl, rfl⟩ := Option.map_eq_some_iff.mp hx
    rw [fluxOf] at hfl
    split at hfl
    next hm =>
      split at hfl
      next h1 =>
        have : s.filternames.idxOf flt = 0 := by
          have := List.idxOf_lt_length_of_mem hm
          omega
        rw [this] at hf
        exact Option.some.inj (hfl.symm.trans hf)
      next => exact Option.some.inj (hfl.symm.trans hf)
    next => cases hfl
  have hbad : ∀ px : ℝ × ℝ, ¬ ∀ f ∈ gs, f.ok ∧ GradOk o f.g px.1 px.2 := by
    intro px h
    obtain ⟨f, hf⟩ := List.exists_mem_of_ne_nil gs hne
    have hamp := (h f hf).2.1
    rw [gig] at hgig
    cases hp : psfMeans st with
    | none => rw [hp] at hgig; cases hgig
    | some ms =>
      rw [hp] at hgig
      have := Option.some.inj hgig
      subst this
      obtain ⟨l, hl, hfl⟩ := List.mem_flatten.mp hf
      obtain ⟨c, -, rfl⟩ := List.mem_map.mp hl
      obtain ⟨pm, -, rfl⟩ := List.mem_map.mp hfl
      apply hamp
      simp [toGaussian, hflux]
  have hrow : ∀ prm, ∀ e ∈ gigRow o (grid nx ny) gs prm, e = none := by
    intro prm e he
    obtain ⟨px, -, rfl⟩ := List.mem_map.mp he
    rw [if_neg (hbad px)]
  have hz : ∀ p ∈ List.zipWith (toShear (s.attr .ep) (s.attr .ec)) (gigRow o (grid nx ny) gs .q)
      (gigRow o (grid nx ny) gs .pa), p = (none, none) := by
    intro p hp
    obtain ⟨i, hi⟩ := List.mem_iff_getElem?.mp hp
    rw [List.getElem?_zipWith] at hi
    cases h1 : (gigRow o (grid nx ny) gs .q)[i]? with
    | none => rw [h1] at hi; cases hi
    | some d =>
      cases h2 : (gigRow o (grid nx ny) gs .pa)[i]? with
      | none => rw [h1, h2] at hi; cases hi
      | some e =>
        rw [h1, h2] at hi
        have hd := hrow _ _ (List.mem_of_getElem? h1)
        subst hd
        exact (Option.some.inj hi).symm
  intro row hr e he
  obtain ⟨r, hr⟩ := List.mem_iff_getElem?.mp hr
  rcases rows_spec o nx ny gs s r row hr with ⟨prm, rfl⟩ | ⟨-, rfl | rfl⟩
  · exact hrow prm e he
  · obtain ⟨p, hp, rfl⟩ := List.mem_map.mp he
    rw [hz p hp]
  · obtain ⟨p, hp, rfl⟩ := List.mem_map.mp he
    rw [hz p hp]

/-- C129 (round galaxies). For a `ConformalShearGalaxy` with both shears zero no entry of the two rows for the shears is
a number. -/
theorem C129_round (prof : Cls → List Prof) (o : Opts) (st : Stamp) (nx ny : Nat) (flt : String)
    (s : Sources.Source ℝ) (b : Bool) (hcls : s.cls = .conformal b) (hep : s.attr .ep = 0) (hec : s.attr .ec = 0)
    (im : List ℝ) (G : List (List (Option ℝ))) (hren : render prof o true st nx ny flt s = some (im, some G)) :
    G[3]? = some (List.replicate (nx * ny) none) ∧ G[4]? = some (List.replicate (nx * ny) none) := by
  obtain ⟨x, gs, hx, hgig, rfl⟩ := render_inv hren
  have hts : ∀ d e, toShear 0 0 d e = (none, none) := by
    intro d e
    rcases d with _ | d <;> rcases e with _ | e <;> simp only [toShear]
    rw [if_pos Shear.C54_round_singular.2]
  have hz : List.zipWith (toShear 0 0) (gigRow o (grid nx ny) gs .q) (gigRow o (grid nx ny) gs .pa) =
      List.replicate (nx * ny) (none, none) := by
    rw [List.eq_replicate_iff]
    constructor
    · rw [List.length_zipWith, gigRow, gigRow, List.length_map, List.length_map, grid_length, min_self]
    · intro p hp
      obtain ⟨i, hi⟩ := List.mem_iff_getElem?.mp hp
      rw [List.getElem?_zipWith] at hi
      cases h1 : (gigRow o (grid nx ny) gs .q)[i]? with
      | none => rw [h1] at hi; cases hi
      | some d =>
        cases h2 : (gigRow o (grid nx ny) gs .pa)[i]? with
        | none => rw [h1, h2] at hi; cases hi
        | some e =>
          rw [h1, h2] at hi
          rw [← Option.some.inj hi, hts]
  rw [useRows]
  simp only [hcls, List.map_cons, List.map_nil, shearRows, hep, hec, hz, List.map_replicate]
  cases b <;> exact ⟨rfl, rfl⟩

/-- C129 (unknown filters). A source cannot be rendered in a filter it does not have; with no profile or no
point-spread function it can, but not with derivatives. -/
theorem C129_errors (prof : Cls → List Prof) (o : Opts) (st : Stamp) (nx ny : Nat) (flt : String)
    (s : Sources.Source ℝ) :
    (flt ∉ s.filternames → ∀ d, render prof o d st nx ny flt s = none) ∧
    (flt ∈ s.filternames → s.flux.length = s.filternames.length → st.arcsec = false →
      prof s.cls = [] ∨ st.psf = [] → render prof o true st nx ny flt s = none ∧
        render prof o false st nx ny flt s = some (List.replicate (nx * ny) 0, none)) := by
  constructor
  · intro h d
    rw [render, read, fluxOf, if_neg h]
    rfl
  · intro h hlen har hemp
    have hidx : s.filternames.idxOf flt < s.flux.length := by
      rw [hlen]
      exact List.idxOf_lt_length_of_mem h
    have hf : ∃ f, fluxOf flt s = some f := by
      rw [fluxOf, if_pos h]
      split
      next h1 => exact ⟨s.flux[0], List.getElem?_eq_getElem (by omega)⟩
      next => exact ⟨_, List.getElem?_eq_getElem hidx⟩
    obtain ⟨f, hf⟩ := hf
    have hx : ∃ x, read prof flt s = some x ∧ gig x st = some [] := by
      rw [read, hf]
      refine ⟨_, rfl, ?_⟩
      rw [gig, psfMeans, har]
      rcases hemp with h | h
      · simp [h]
      · simp [h]
    obtain ⟨x, hx, hg⟩ := hx
    have himg : gigImage o (grid nx ny) [] = List.replicate (nx * ny) 0 := by
      rw [gigImage, List.eq_replicate_iff]
      refine ⟨by rw [List.length_map, grid_length], fun y hy => ?_⟩
      obtain ⟨p, -, rfl⟩ := List.mem_map.mp hy
      rfl
    simp [render, hx, hg, computeGig, himg]

/-- The hypotheses of `C129_image` and `C129_gradient` can be met: a galaxy with two fluxes on a stamp of one pixel has
seven rows of one number. -/
theorem C129_witness : (∀ c, ∀ p ∈ Multi.prof1 c, p.Right) ∧ psfMeans stamp1 = some [(0, 0)] ∧
    (∀ x, read Multi.prof1 "F" Multi.gal1 = some x → Regular x stamp1) ∧
    (∀ c ∈ Multi.prof1 (.galaxy true), ∀ p ∈ stamp1.psf,
      0 < (imageCov (mat stamp1.D) (mat c.cov) (mat p.cov) 1 0).det) ∧
    ∃ im G, render Multi.prof1 {} true stamp1 1 1 "F" Multi.gal1 = some (im, some G) ∧
      ∀ r : Nat, r < 7 → ∃ g : ℝ, G[r]? = some [some g] := by
  classical
  have hms : psfMeans stamp1 = some [(0, 0)] := by simp [psfMeans, stamp1]
  have hread : read Multi.prof1 "F" Multi.gal1 = some source1 := by
    simp [read, fluxOf, shapeOf, Multi.gal1, Multi.prof1, source1]
  refine ⟨Multi.C80_witness.1, hms, ?_, ?_, ?_⟩
  · intro x hx
    rw [hread] at hx
    cases hx
    exact C64_witness.2.1
  · intro c hc p hp
    simp only [Multi.prof1, List.mem_singleton] at hc
    simp only [stamp1, List.mem_singleton] at hp
    subst hc
    subst hp
    simp only [imageCov, mat, stamp1, Matrix.det_fin_two, Matrix.add_apply, Matrix.mul_apply, Fin.sum_univ_two,
      Matrix.transpose_apply, Matrix.of_apply, Matrix.cons_val', Matrix.cons_val_zero, Matrix.cons_val_one,
      Matrix.cons_val_fin_one, Real.cos_zero, Real.sin_zero]
    norm_num
  · have hok : ∀ f ∈ gigD source1 stamp1, f.ok ∧ GradOk {} f.g ((0 : Nat) : ℝ) ((0 : Nat) : ℝ) := by
      intro f hf
      rw [gigD_eq source1 stamp1 _ hms] at hf
      simp only [source1, stamp1, List.map_cons, List.map_nil, List.zip_cons_cons, List.zip_nil_right,
        List.flatten_cons, List.flatten_nil, List.append_nil, List.mem_singleton] at hf
      subst hf
      have hs := sigma1
      simp only [source1, stamp1] at hs
      refine ⟨⟨?_, by norm_num, by norm_num⟩, ?_, ?_, by simp⟩
      · rw [hs]
        simp [fastDet]
      · simp only [toGaussian, hs]
        have : fastDet (fastInv ⟨2, 0, 0, 2⟩) = 1 / 4 := by
          simp only [fastDet, fastInv]
          norm_num
        rw [this]
        have h2 : Real.sqrt (1 / 4) ≠ 0 := (Real.sqrt_pos.mpr (by norm_num)).ne'
        have h3 := Real.pi_ne_zero
        exact div_ne_zero (by simpa using h2) (by simpa using h3)
      · intro _
        simp only [hOf, toGaussian, hs, fastInv, M22.mulVec]
        norm_num
    have hgig : gig source1 stamp1 = some (gigD source1 stamp1) := by
      rw [gigD, gig, hms]
      rfl
    have hne : gigD source1 stamp1 ≠ [] := by
      rw [gigD_eq source1 stamp1 _ hms]
      simp [source1, stamp1]
    refine ⟨gigImage {} (grid 1 1) (gigD source1 stamp1), useRows Multi.gal1
      ([Param.flux, .ra, .dec, .q, .pa, .sersic, .rh].map fun prm => gigRow {} (grid 1 1) (gigD source1 stamp1) prm), ?_, ?_⟩
    · rw [render, hread]
      dsimp only
      rw [hgig]
      dsimp only
      rw [computeGig, if_pos rfl, if_neg hne]
      rfl
    · have hgrid : grid 1 1 = [(((0 : Nat) : ℝ), ((0 : Nat) : ℝ))] := rfl
      have hrow : ∀ prm, ∃ g : ℝ, gigRow {} (grid 1 1) (gigD source1 stamp1) prm = [some g] := by
        intro prm
        rw [gigRow, hgrid, List.map_cons, List.map_nil, if_pos hok]
        exact ⟨_, rfl⟩
      intro r hr
      have hu : (useRows Multi.gal1 ([Param.flux, .ra, .dec, .q, .pa, .sersic, .rh].map fun prm =>
          gigRow {} (grid 1 1) (gigD source1 stamp1) prm)) = ([Param.flux, .ra, .dec, .q, .pa, .sersic, .rh].map fun prm =>
          gigRow {} (grid 1 1) (gigD source1 stamp1) prm) := rfl
      rw [hu, List.getElem?_map, List.getElem?_eq_getElem (by simpa using hr), Option.map_some]
      obtain ⟨g, hg⟩ := hrow ([Param.flux, .ra, .dec, .q, .pa, .sersic, .rh][r]'(by simpa using hr))
      exact ⟨g, by rw [hg]⟩

end Forcepho.Slow.Render
