import Verif.Slow.Deriv
import Mathlib.Algebra.BigOperators.Ring.List

/-! # C64: the two Python work plans -/

set_option autoImplicit false
set_option linter.unusedSectionVars false

namespace Forcepho.Slow

open Forcepho.Kernel (M22 Param Pixel hconst hasDerivAt_list_sum)
open Forcepho.Transform (hdc)

/-! ## Loops as sums -/

/-- The counts of a source in a pixel. -/
noncomputable def sourceCounts (o : Opts) (p : Pixel) (gs : List Full) : ℝ :=
  (gs.map fun f => counts o f.g p.x p.y).sum

/-- The counts of several sources in a pixel. -/
noncomputable def modelCounts (o : Opts) (p : Pixel) (ss : List (List Full)) : ℝ :=
  (ss.map (sourceCounts o p)).sum

lemma foldl_sub {α : Type} (f : α → ℝ) (l : List α) (r : ℝ) :
    l.foldl (fun r a => r - f a) r = r - (l.map f).sum := by
  induction l generalizing r with
  | nil => simp
  | cons a l ih =>
    rw [List.foldl_cons, ih]
    simp only [List.map_cons, List.sum_cons]
    ring

lemma foldl_add {α : Type} (f : α → ℝ) (l : List α) (r : ℝ) :
    l.foldl (fun r a => r + f a) r = r + (l.map f).sum := by
  induction l generalizing r with
  | nil => simp
  | cons a l ih =>
    rw [List.foldl_cons, ih]
    simp only [List.map_cons, List.sum_cons]
    ring

lemma plainResidual_eq (o : Opts) (gs : List Full) (p : Pixel) :
    plainResidual o gs p = -sourceCounts o p gs := by
  unfold plainResidual
  rw [foldl_sub (fun f : Full => counts o f.g p.x p.y)]
  simp [sourceCounts]

lemma fastResidual_eq (o : Opts) (active fixed : List (List Full)) (p : Pixel) :
    fastResidual o active fixed p = p.data - modelCounts o p (active ++ fixed) := by
  unfold fastResidual
  have : (fun (r : ℝ) (gs : List Full) => gs.foldl (fun r f => r - counts o f.g p.x p.y) r) =
      fun r gs => r - sourceCounts o p gs := by
    funext r gs
    rw [foldl_sub (fun f : Full => counts o f.g p.x p.y)]
    rfl
  rw [this, foldl_sub (sourceCounts o p)]
  rfl

lemma plainChi_eq (o : Opts) (active fixed : List (List Full)) (p : Pixel) :
    plainChi o active fixed p = (p.data - modelCounts o p active) * p.ierr := by
  unfold plainChi modelCounts
  have h1 : (active.map fun gs => plainResidual o gs p) =
      active.map fun gs => -sourceCounts o p gs := by
    apply List.map_congr_left
    intro gs _
    exact plainResidual_eq o gs p
  have h2 : ∀ l : List (List Full), (l.map fun gs => -sourceCounts o p gs).sum =
      -(l.map (sourceCounts o p)).sum := by
    intro l
    induction l with
    | nil => simp
    | cons a l ih =>
      simp only [List.map_cons, List.sum_cons, ih]
      ring
  have h3 : (fixed.map fun _ => (0 : ℝ)).sum = 0 := by
    apply List.sum_eq_zero
    intro x hx
    simp only [List.mem_map] at hx
    obtain ⟨_, _, rfl⟩ := hx
    rfl
  rw [h1, h2, h3]
  ring

lemma dot_chivar (o : Opts) (px : List Pixel) (w : Pixel → ℝ) (g : Gauss) (J : Row) :
    J.dot (chivarRow o px w g) = (px.map fun p => J.dot (gradients o g p.x p.y) * w p).sum := by
  induction px with
  | nil => simp [chivarRow, Row.dot]
  | cons p px ih =>
    simp only [List.map_cons, List.sum_cons, ← ih]
    simp only [chivarRow, Row.dot, List.map_cons, List.sum_cons]
    ring

lemma sum_comm' {α β : Type} (l : List α) (m : List β) (f : α → β → ℝ) :
    (l.map fun a => (m.map fun b => f a b).sum).sum = (m.map fun b => (l.map fun a => f a b).sum).sum := by
  induction l with
  | nil => simp
  | cons a l ih =>
    simp only [List.map_cons, List.sum_cons, ih]
    rw [← List.sum_map_add]

lemma fastGrad_eq (o : Opts) (px : List Pixel) (w : Pixel → ℝ) (gs : List Full) (prm : Param) :
    gs.foldl (fun r f => r + (f.J prm).dot (chivarRow o px w f.g)) 0 =
      (px.map fun p => (gs.map fun f => (f.J prm).dot (gradients o f.g p.x p.y)).sum * w p).sum := by
  rw [foldl_add (fun f : Full => (f.J prm).dot (chivarRow o px w f.g)), zero_add]
  have : (gs.map fun f => (f.J prm).dot (chivarRow o px w f.g)) =
      gs.map fun f => (px.map fun p => (f.J prm).dot (gradients o f.g p.x p.y) * w p).sum := by
    apply List.map_congr_left
    intro f _
    exact dot_chivar o px w f.g _
  rw [this, sum_comm']
  congr 1
  apply List.map_congr_left
  intro p _
  rw [List.sum_map_mul_right]

/-! ## The theorems -/

/-- Without fixed sources the two plans return the same likelihood and the same gradients. -/
theorem C64_agree_partial (o : Opts) (px : List Pixel) (active : List (List Full)) :
    plainLnlike o px active [] = fastLnlike o px active [] := by
  have hchi : ∀ p, plainChi o active [] p = fastResidual o active [] p * p.ierr := by
    intro p
    rw [plainChi_eq, fastResidual_eq, List.append_nil]
  unfold plainLnlike fastLnlike
  simp only [hchi]
  congr 1
  apply List.map_congr_left
  intro gs _
  split
  · congr 1
    funext prm
    rw [fastGrad_eq]
    congr 1
    apply List.map_congr_left
    intro p _
    unfold plainImageGrad
    rw [foldl_add (fun f : Full => (f.J prm).dot (gradients o f.g p.x p.y)), zero_add]
  · rfl

/-- What the fixed sources mean to each plan: to the fast plan they are subtracted from the data, to the
plain plan they do not exist. -/
theorem C64_fixed (o : Opts) (px : List Pixel) (active fixed : List (List Full)) :
    (fastLnlike o px active fixed).lnlike =
      -(1 / 2) * (px.map fun p => ((p.data - modelCounts o p fixed - modelCounts o p active) * p.ierr) ^ 2).sum ∧
    (plainLnlike o px active fixed).lnlike =
      -(1 / 2) * (px.map fun p => ((p.data - modelCounts o p active) * p.ierr) ^ 2).sum := by
  constructor
  · simp only [fastLnlike, fastResidual_eq]
    have : ∀ p : Pixel, modelCounts o p (active ++ fixed) =
        modelCounts o p active + modelCounts o p fixed := by
      intro p
      simp [modelCounts]
    simp only [this]
    norm_num
    congr 1
    apply List.map_congr_left
    intro p _
    ring
  · simp only [plainLnlike, plainChi_eq]
    norm_num
    congr 1
    apply List.map_congr_left
    intro p _
    ring

/-- A pixel at the origin, a unit gaussian there. -/
def unitGauss : Full := ⟨⟨1, 0, 0, 1, 1, 0⟩, fun _ => ⟨0, 0, 0, 0, 0, 0⟩, True⟩

/-- With a fixed source the two plans differ. -/
theorem C64_refuted : ∃ (px : List Pixel) (active fixed : List (List Full)),
    (plainLnlike {} px active fixed).lnlike ≠ (fastLnlike {} px active fixed).lnlike := by
  refine ⟨[⟨0, 0, 0, 1⟩], [], [[unitGauss]], ?_⟩
  rw [(C64_fixed {} _ [] [[unitGauss]]).1, (C64_fixed {} _ [] [[unitGauss]]).2]
  simp [modelCounts, sourceCounts, counts, unitGauss, hOf, rootDet]
  norm_num

lemma sum_set {α : Type} (f : α → ℝ) : ∀ (l : List α) (k : Nat) (a x : α), l[k]? = some a →
    ((l.set k x).map f).sum = (l.map f).sum - f a + f x
  | [], k, a, x, h => by simp at h
  | b :: l, 0, a, x, h => by
    simp only [List.getElem?_cons_zero, Option.some.injEq] at h
    subst h
    simp only [List.set_cons_zero, List.map_cons, List.sum_cons]
    ring
  | b :: l, k + 1, a, x, h => by
    simp only [List.getElem?_cons_succ] at h
    simp only [List.set_cons_succ, List.map_cons, List.sum_cons, sum_set f l k a x h]
    ring

/-- The gradient of the fast plan at the level of gaussians. -/
lemma fast_deriv (o : Opts) (px : List Pixel) (active fixed : List (List Full)) (k : Nat)
    (gs : List Full) (hk : active[k]? = some gs) (prm : Param) (curve : ℝ → List Full) (t₀ : ℝ)
    (h0 : curve t₀ = gs) (hf : Follows prm curve t₀) (g : Param → ℝ)
    (hg : (fastLnlike o px active fixed).grads[k]? = some (some g)) :
    HasDerivAt (fun t => (fastLnlike o px (active.set k (curve t)) fixed).lnlike) (g prm) t₀ := by
  classical
  obtain ⟨ι, L, G, hG, hal⟩ := hf
  simp only [fastLnlike, List.getElem?_map, hk, Option.map_some, Option.some.injEq] at hg
  split at hg
  case isFalse => simp at hg
  case isTrue hok =>
  simp only [Option.some.injEq] at hg
  have hgp := congrFun hg prm
  simp only [fastGrad_eq] at hgp
  have hS : ∀ p ∈ px, HasDerivAt (fun t => sourceCounts o p (curve t))
      ((gs.map fun f => (f.J prm).dot (gradients o f.g p.x p.y)).sum) t₀ := by
    intro p hp
    have hgs : gs = L.map (G t₀) := by rw [← h0, hG]
    rw [hgs, List.map_map]
    have hc : (fun t => sourceCounts o p (curve t)) =
        fun t => (L.map fun l => counts o (G t l).g p.x p.y).sum := by
      funext t
      rw [hG]
      simp only [sourceCounts, List.map_map]
      rfl
    rw [hc]
    apply hasDerivAt_list_sum
    intro l hl
    have hmem : G t₀ l ∈ gs := by rw [hgs]; exact List.mem_map_of_mem hl
    obtain ⟨ok1, ok2⟩ := hok _ hmem
    exact C64_counts o (hal l hl ok1) p.x p.y (ok2 p hp)
  have hmodel : ∀ p t, modelCounts o p (active.set k (curve t) ++ fixed) =
      modelCounts o p (active ++ fixed) - sourceCounts o p gs + sourceCounts o p (curve t) := by
    intro p t
    simp only [modelCounts, List.map_append, List.sum_append]
    rw [sum_set (sourceCounts o p) active k gs (curve t) hk]
    ring
  have hfun : (fun t => (fastLnlike o px (active.set k (curve t)) fixed).lnlike) = fun t =>
      -0.5 * (px.map fun p => ((p.data - (modelCounts o p (active ++ fixed) - sourceCounts o p gs +
        sourceCounts o p (curve t))) * p.ierr) ^ 2).sum := by
    funext t
    simp only [fastLnlike, fastResidual_eq, hmodel]
    congr 2
    apply List.map_congr_left
    intro p _
    ring
  rw [hfun]
  have hsum := hasDerivAt_list_sum px (fun p t => ((p.data - (modelCounts o p (active ++ fixed) -
      sourceCounts o p gs + sourceCounts o p (curve t))) * p.ierr) ^ 2)
    (fun p => -2 * ((gs.map fun f => (f.J prm).dot (gradients o f.g p.x p.y)).sum *
      (fastResidual o active fixed p * p.ierr * p.ierr))) t₀ (by
      intro p hp
      refine hdc (((((hS p hp).const_add (modelCounts o p (active ++ fixed) -
        sourceCounts o p gs)).const_sub p.data).mul_const p.ierr).pow 2) (fun t => rfl) ?_
      rw [fastResidual_eq, h0]
      push_cast
      ring)
  refine hdc (hsum.const_mul (-0.5)) (fun t => rfl) ?_
  rw [← hgp]
  rw [List.sum_map_mul_left]
  ring

/-- The gradient of the likelihood: along each on-sky parameter of an active source, with the others held,
the returned number is the derivative of the returned log-likelihood, for both plans (the plain one
without fixed sources). -/
theorem C64_gradient (o : Opts) (st : Stamp) (ms : List (ℝ × ℝ)) (hms : psfMeans st = some ms)
    (active fixed : List Source) (k : Nat) (s : Source) (hk : active[k]? = some s)
    (hr : Regular s st) (prm : Param) (u : ℝ → Source) (t₀ : ℝ) (hm : Moves s prm u t₀) :
    (∀ g, (fastLnlike o st.pixels (active.map fun a => gigD a st)
        (fixed.map fun a => gigD a st)).grads[k]? = some (some g) →
      HasDerivAt (fun t => (fastLnlike o st.pixels ((active.set k (u t)).map fun a => gigD a st)
        (fixed.map fun a => gigD a st)).lnlike) (g prm) t₀) ∧
    (∀ g, (plainLnlike o st.pixels (active.map fun a => gigD a st) []).grads[k]? = some (some g) →
      HasDerivAt (fun t => (plainLnlike o st.pixels ((active.set k (u t)).map fun a => gigD a st)
        []).lnlike) (g prm) t₀) := by
  obtain ⟨h0, hf⟩ := follows_moves s st ms hms hr prm u t₀ hm
  have key : ∀ (fx : List (List Full)) (g : Param → ℝ), (fastLnlike o st.pixels
      (active.map fun a => gigD a st) fx).grads[k]? = some (some g) →
      HasDerivAt (fun t => (fastLnlike o st.pixels ((active.set k (u t)).map fun a => gigD a st)
        fx).lnlike) (g prm) t₀ := by
    intro fx g hg
    have := fast_deriv o st.pixels (active.map fun a => gigD a st) fx k (gigD s st)
      (by rw [List.getElem?_map, hk]; rfl) prm (fun t => gigD (u t) st) t₀ h0 hf g hg
    refine hdc this (fun t => ?_) rfl
    rw [List.map_set]
  refine ⟨fun g hg => key _ g hg, fun g hg => ?_⟩
  simp only [C64_agree_partial] at hg ⊢
  exact key [] g hg

/-- When the gradient of a source is a number: its flux is not zero, nor any amplitude of its profile, and
every image covariance can be inverted (pixel terms aside). -/
theorem C64_nan (o : Opts) (st : Stamp) (active fixed : List Source) (k : Nat) (s : Source)
    (hk : active[k]? = some s) (hp : st.psf ≠ []) (har : st.arcsec = false) (c : Comp) (hc : c ∈ s.comps)
    (hbad : s.flux = 0 ∨ c.amp = 0) :
    (fastLnlike o st.pixels (active.map fun a => gigD a st)
        (fixed.map fun a => gigD a st)).grads[k]? = some none := by
  classical
  simp only [fastLnlike, List.getElem?_map, hk, Option.map_some, Option.some.injEq]
  apply if_neg
  intro hok
  obtain ⟨p, rest, hpr⟩ := List.exists_cons_of_ne_nil hp
  have hms : psfMeans st = some (st.psf.map (·.mean)) := by
    simp [psfMeans, har]
  have hmem : (⟨toGaussian s st c p p.mean, derivs s st c p, DerivsOk s st c p⟩ : Full) ∈ gigD s st := by
    rw [gigD_eq s st _ hms]
    apply List.mem_flatten.mpr
    refine ⟨_, List.mem_map_of_mem hc, ?_⟩
    rw [hpr]
    simp
  obtain ⟨⟨-, h1, h2⟩, -⟩ := hok _ hmem
  rcases hbad with h | h
  · exact h1 h
  · exact h2 h

/-- A PSF in arcsec: converting a source raises unless the PSF has exactly two gaussians. -/
theorem C64_arcsec (s : Source) (st : Stamp) (har : st.arcsec = true) :
    gig s st = none ↔ st.psf.length ≠ 2 := by
  unfold gig psfMeans
  rw [har]
  simp only [if_true]
  rcases hps : st.psf with _ | ⟨a, _ | ⟨b, _ | ⟨c, l⟩⟩⟩ <;> simp

/-- With two gaussians the offsets of the PSF are wrong: one gaussian offset in `x` by one arcsec is placed
off in `y` when the pixels are not square. -/
theorem C64_arcsec_refuted : ∃ (st : Stamp) (p0 p1 : PComp), st.arcsec = true ∧ st.psf = [p0, p1] ∧
    psfMeans st = some [(2, 2), (0, 0)] ∧ st.D.mulVec p0.mean = (2, 1) ∧ st.D.mulVec p1.mean = (0, 0) := by
  refine ⟨⟨⟨2, 0, 0, 1⟩, ⟨1, 0, 0, 1⟩, (0, 0), (0, 0), 1,
    [⟨1, (1, 1), ⟨1, 0, 0, 1⟩⟩, ⟨1, (0, 0), ⟨1, 0, 0, 1⟩⟩], true, []⟩, _, _, rfl, rfl, ?_, ?_, ?_⟩
  · simp [psfMeans]
  · simp [M22.mulVec]
  · simp [M22.mulVec]

/-- With two gaussians the offsets in pixels are the rows of the matrix product of the scale matrix with the table
of offsets; placing every gaussian right takes the product of the table with the transposed scale matrix, so the
offsets are right exactly if these two products agree. -/
theorem C64_arcsec_offsets (st : Stamp) (p0 p1 : PComp) (har : st.arcsec = true) (hp : st.psf = [p0, p1]) :
    ∃ q0 q1 : ℝ × ℝ, psfMeans st = some [q0, q1] ∧
      !![q0.1, q0.2; q1.1, q1.2] = !![st.D.v11, st.D.v12; st.D.v21, st.D.v22] *
        !![p0.mean.1, p0.mean.2; p1.mean.1, p1.mean.2] ∧
      ((q0 = (st.D.v11 * p0.mean.1 + st.D.v12 * p0.mean.2, st.D.v21 * p0.mean.1 + st.D.v22 * p0.mean.2) ∧
        q1 = (st.D.v11 * p1.mean.1 + st.D.v12 * p1.mean.2, st.D.v21 * p1.mean.1 + st.D.v22 * p1.mean.2)) ↔
        !![st.D.v11, st.D.v12; st.D.v21, st.D.v22] * !![p0.mean.1, p0.mean.2; p1.mean.1, p1.mean.2] =
        !![p0.mean.1, p0.mean.2; p1.mean.1, p1.mean.2] *
          !![st.D.v11, st.D.v21; st.D.v12, st.D.v22]) := by
  refine ⟨(st.D.v11 * p0.mean.1 + st.D.v12 * p1.mean.1, st.D.v11 * p0.mean.2 + st.D.v12 * p1.mean.2),
    (st.D.v21 * p0.mean.1 + st.D.v22 * p1.mean.1, st.D.v21 * p0.mean.2 + st.D.v22 * p1.mean.2), ?_, ?_, ?_⟩
  · simp [psfMeans, har, hp]
  · rw [Matrix.mul_fin_two]
  · rw [Matrix.mul_fin_two, Matrix.mul_fin_two]
    simp only [Prod.mk.injEq, EmbeddingLike.apply_eq_iff_eq, Matrix.vecCons_inj, and_true]
    constructor
    · rintro ⟨⟨h1, h2⟩, h3, h4⟩
      refine ⟨⟨?_, ?_⟩, ?_, ?_⟩ <;> linarith
    · rintro ⟨⟨h1, h2⟩, h3, h4⟩
      refine ⟨⟨?_, ?_⟩, ?_, ?_⟩ <;> linarith

/-! ## The shared options -/

/-- A sequence of evaluations with either plan. -/
inductive Plan where
  | plain (o : Opts) (px : List Pixel) (active fixed : List (List Full))
  | fast (o : Opts) (px : List Pixel) (active fixed : List (List Full))

/-- Run one. -/
noncomputable def Plan.run (sh : Shared) : Plan → Outcome × Shared
  | .plain o px a f => runPlain sh o px a f
  | .fast o px a f => runFast sh o px a f

/-- Run several in one interpreter. -/
noncomputable def runAll : Shared → List Plan → List Outcome
  | _, [] => []
  | sh, p :: ps => (p.run sh).1 :: runAll (p.run sh).2 ps

/-- The plan on its own. -/
noncomputable def Plan.alone : Plan → LnLike
  | .plain o px a f => plainLnlike o px a f
  | .fast o px a f => fastLnlike o px a f

/-- Every plan has an active gaussian. -/
def Plan.HasActive : Plan → Prop
  | .plain _ _ a _ => a.flatten ≠ []
  | .fast _ _ a _ => a.flatten ≠ []

/-- As long as every plan has an active source, each of any sequence of evaluations gives what it would
give in a fresh interpreter. -/
theorem C64_history_partial (ps : List Plan) (h : ∀ p ∈ ps, p.HasActive) :
    runAll none ps = ps.map fun p => Outcome.value p.alone := by
  have key : ∀ (ps : List Plan) (sh : Shared), sh ≠ some false → (∀ p ∈ ps, p.HasActive) →
      runAll sh ps = ps.map fun p => Outcome.value p.alone := by
    intro ps
    induction ps with
    | nil => intros; rfl
    | cons p ps ih =>
      intro sh hsh hps
      have hp := hps p (by simp)
      have hrest : ∀ q ∈ ps, q.HasActive := fun q hq => hps q (by simp [hq])
      simp only [runAll, List.map_cons]
      cases p with
      | plain o px a f =>
        have h1 : (Plan.plain o px a f).run sh = (.value (plainLnlike o px a f), sh) := by
          simp only [Plan.run, runPlain]
          rw [if_neg (by rintro ⟨h1, -⟩; exact hsh h1)]
        rw [h1, ih sh hsh hrest]
        rfl
      | fast o px a f =>
        have hp' : a.flatten ≠ [] := hp
        have h1 : (Plan.fast o px a f).run sh = (.value (fastLnlike o px a f), some true) := by
          simp only [Plan.run, runFast]
          rw [if_pos hp']
        rw [h1, ih (some true) (by simp) hrest]
        rfl
  exact key ps none (by simp) h

/-- One evaluation of a fast plan with only fixed sources breaks every later evaluation of a plain
plan. -/
theorem C64_history_refuted (o : Opts) (px : List Pixel) (fixed : List (List Full))
    (hf : fixed.flatten ≠ []) (o' : Opts) (px' : List Pixel) (active fixed' : List (List Full))
    (ha : active.flatten ≠ []) :
    runAll none [.plain o' px' active fixed', .fast o px [] fixed, .plain o' px' active fixed'] =
      [.value (plainLnlike o' px' active fixed'), .value (fastLnlike o px [] fixed), .raised] := by
  have hf' : ¬ ∀ l ∈ fixed, l = [] := by simpa [List.flatten_eq_nil_iff] using hf
  have ha' : ¬ ∀ l ∈ active, l = [] := by simpa [List.flatten_eq_nil_iff] using ha
  simp [runAll, Plan.run, runPlain, runFast, hf', ha']

/-! ## An instance -/

/-- A stamp with one pixel off the centre. -/
def stamp1 : Stamp :=
  ⟨⟨1, 0, 0, 1⟩, ⟨1, 0, 0, 1⟩, (0, 0), (0, 0), 1, [⟨1, (0, 0), ⟨1, 0, 0, 1⟩⟩], false, [⟨0, 0, 2, 1⟩]⟩

/-- A source at the origin. -/
def source1 : Source := ⟨0, 0, 1, 0, 3, [⟨⟨1, 0, 0, 1⟩, 1, 1, 1⟩]⟩

lemma sigma1 : sigma source1 stamp1 ⟨⟨1, 0, 0, 1⟩, 1, 1, 1⟩ ⟨1, (0, 0), ⟨1, 0, 0, 1⟩⟩ = ⟨2, 0, 0, 2⟩ := by
  simp only [sigma, tMatrix, dotDot, rotationMatrix, scaleMatrix, source1, stamp1, psfCov, M22.mul,
    M22.add, M22.tr, Real.cos_zero, Real.sin_zero, M22.mk.injEq]
  norm_num

/-- The hypotheses of `C64_gradient` can be met: the gradient is a number. -/
theorem C64_witness : psfMeans stamp1 = some [(0, 0)] ∧ Regular source1 stamp1 ∧
    Moves source1 .q (fun t => { source1 with q := t }) 1 ∧
    ∃ g, (fastLnlike {} stamp1.pixels [gigD source1 stamp1] []).grads[0]? = some (some g) := by
  classical
  have hms : psfMeans stamp1 = some [(0, 0)] := by simp [psfMeans, stamp1]
  refine ⟨hms, ⟨by simp [source1], ?_, ?_, ?_⟩, ⟨rfl, fun t => rfl⟩, ?_⟩
  · simp [source1]
  · simp [stamp1]
  · intro c hc p hp
    simp only [source1, List.mem_singleton] at hc
    simp only [stamp1, List.mem_singleton] at hp
    subst hc
    subst hp
    rw [sigma1]
    simp [fastDet]
  · simp only [fastLnlike, List.map_cons, List.getElem?_cons_zero]
    rw [if_pos]
    · exact ⟨_, rfl⟩
    · intro f hf
      rw [gigD_eq source1 stamp1 _ hms] at hf
      simp only [source1, stamp1, List.map_cons, List.map_nil, List.zip_cons_cons, List.zip_nil_right,
        List.flatten_cons, List.flatten_nil, List.append_nil, List.mem_singleton] at hf
      subst hf
      have hs := sigma1
      simp only [source1, stamp1] at hs
      refine ⟨⟨?_, by norm_num, by norm_num⟩, ?_⟩
      · rw [hs]
        simp [fastDet]
      · intro p hp
        simp only [stamp1, List.mem_singleton] at hp
        subst hp
        refine ⟨?_, ?_, by simp⟩
        · simp only [toGaussian, hs]
          have : fastDet (fastInv ⟨2, 0, 0, 2⟩) = 1 / 4 := by
            simp only [fastDet, fastInv]
            norm_num
          rw [this]
          have h2 : Real.sqrt (1 / 4) ≠ 0 := (Real.sqrt_pos.mpr (by norm_num)).ne'
          have h3 := Real.pi_ne_zero
          exact div_ne_zero (by simpa using h2) (by simpa using h3)
        · intro _
          simp only [hOf, toGaussian, hs, fastInv, M22.mulVec]
          norm_num

end Forcepho.Slow
