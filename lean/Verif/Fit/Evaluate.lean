import Verif.Kernel.Layout
import Verif.Kernel.Gpu
import Verif.Transform.Props
import Verif.Sources.Catalog
import Verif.Posterior.Props

/-! # One evaluation of the posterior, from the sampler's vector to the answer (forcepho/model.py)

The pieces modelled apart in `Transform`, `Sources`, `Kernel` and `Posterior` are put together as
`FastPosterior.evaluate` does: transform, write the scene, pack the proposal, launch the kernel once per band, read the
response, stack it, apply the chain rule and the volume correction.  Numbers are real; the catalogue of what is left
out is that of the pieces. -/

set_option autoImplicit false

namespace Forcepho.Fit

open Forcepho
open scoped Matrix

/-! ## Model -/

/-- Where the kernel runs: `CPUProposer` (proposal.py:161-226) or `Proposer` with `thread_block = B` (proposal.py:62-65). -/
inductive Device where
  | cpu
  | gpu (B : Nat)

/-- What the kernel reads from one entry of the proposal (proposal.py:230-240, src/proposal.cu:13-27).  Slots outside the
arrays of 30 and 10 entries are given as zero; `Good` excludes reading them. -/
noncomputable def kernelSource (p : Sources.Proposal ℝ) : Kernel.Source where
  ra := p.ra
  dec := p.dec
  q := p.q
  pa := p.pa
  fluxes := fun b => p.fluxes.getD b 0
  amps := fun k => p.amps.getD k 0
  dAmpDrh := fun k => p.dampsRh.getD k 0
  dAmpDn := fun k => p.dampsN.getD k 0

/-- One block of the launch grid, one band (proposal.py:118, 132-136, 201-209).  The order of the threads is open. -/
def Launch (dev : Device) (band n : Nat) (es : List Kernel.Exposure) (src : Nat → Kernel.Source)
    (acc : Kernel.Acc) : Prop :=
  match dev with
  | .cpu => acc = Kernel.evaluate band n es src
  | .gpu B => Kernel.GpuRun band B n src es { chi2 := 0, grad := fun _ _ => 0 } acc

/-- What the posterior object holds (model.py:269-300): patch by bands, the number of its sources, proposer, splines,
transform, prior and the `sampling` switch. -/
structure Setup (N : Nat) where
  patch : List (List Kernel.Exposure)
  nSources : Nat
  dev : Device
  splines : Sources.Splines ℝ
  transform : Transform.Bounded N
  lnprior : (Fin N → ℝ) → ℝ
  lnpriorGrad : (Fin N → ℝ) → Fin N → ℝ
  sampling : Bool

variable {N : Nat}

/-- The entry of the proposal array at `g`; only asked for entries that exist (`Returned`). -/
noncomputable def entry (ps : List (Sources.Proposal ℝ)) (g : Nat) : Kernel.Source :=
  kernelSource ((ps[g]?).getD ⟨0, 0, 0, 0, 0, 0, [], [], [], []⟩)

/-- `evaluate_proposal` (proposal.py:96-150, 180-226): a proposal with an entry for every source of the patch yields
one chi-square and one block of `n_sources` rows for each band. -/
def Returned (u : Setup N) (ps : List (Sources.Proposal ℝ)) (chi2 : List ℝ) (derivs : List (List (List ℝ))) : Prop :=
  u.nSources ≤ ps.length ∧ ∃ accs : List Kernel.Acc, accs.length = u.patch.length ∧
    (∀ (b : Nat) (es : List Kernel.Exposure) (acc : Kernel.Acc), u.patch[b]? = some es → accs[b]? = some acc →
      Launch u.dev b u.nSources es (entry ps) acc) ∧
    chi2 = accs.map (·.chi2) ∧
    List.Forall₂ (fun (acc : Kernel.Acc) (rows : List (List ℝ)) => ∃ buf, Kernel.fillBuffer u.nSources acc.grad = some buf ∧
      rows = Kernel.responseRows u.nSources buf) accs derivs

/-- The block of rows of one band as read by `stack_grad` (model.py:379-385). -/
noncomputable def rowAt (rows : List (List ℝ)) : Posterior.Stack.Derivs ℝ := fun s j =>
  ((rows[s]?).bind fun row => row[j]?).getD 0

/-- `FastPosterior.evaluate` (model.py:302-352): from the vector `z` and the scene `sc` to the scene left behind, `_lnp`
and `_lnp_grad`.  `mem` are the uninitialised buffers of the sources' proposals (sources.py:607-609). -/
def Evaluated (u : Setup N) (mem : Sources.Source ℝ → Sources.Proposal ℝ) (sc : Sources.Scene ℝ) (z : Fin N → ℝ)
    (sc' : Sources.Scene ℝ) (L : ℝ) (G : Fin N → ℝ) : Prop :=
  Sources.setAll sc (List.ofFn (u.transform.transform z)) = (sc', none) ∧
  ∃ ps chi2 derivs, Sources.getProposal u.splines mem sc' true = .ok ps ∧ Returned u ps chi2 derivs ∧
    (Posterior.Stack.stackGrad u.nSources u.patch.length (derivs.map rowAt)).length = N ∧
    L = Transform.lnp ⟨fun _ => chi2, fun _ i =>
        (Posterior.Stack.stackGrad u.nSources u.patch.length (derivs.map rowAt)).getD i 0, u.lnprior, u.lnpriorGrad⟩
      u.transform u.sampling z ∧
    G = Transform.lnpGrad ⟨fun _ => chi2, fun _ i =>
        (Posterior.Stack.stackGrad u.nSources u.patch.length (derivs.map rowAt)).getD i 0, u.lnprior, u.lnpriorGrad⟩
      u.transform u.sampling z

/-! ## Specification -/

/-- The gaussian mixture of a profile and its derivatives, as functions of Sersic index and half-light radius. -/
structure Mixture where
  amps : ℝ → ℝ → List ℝ
  dN : ℝ → ℝ → List ℝ
  dRh : ℝ → ℝ → List ℝ

/-- The sources meant by a parameter vector: for each source its fluxes in the bands, then right ascension, declination,
axis ratio, position angle, Sersic index and half-light radius. -/
noncomputable def srcOf (P : Mixture) (nb : Nat) (q : Nat → ℝ) (g : Nat) : Kernel.Source where
  fluxes := fun b => q (g * (nb + 6) + b)
  ra := q (g * (nb + 6) + (nb + 0))
  dec := q (g * (nb + 6) + (nb + 1))
  q := q (g * (nb + 6) + (nb + 2))
  pa := q (g * (nb + 6) + (nb + 3))
  amps := fun k => (P.amps (q (g * (nb + 6) + (nb + 4))) (q (g * (nb + 6) + (nb + 5)))).getD k 0
  dAmpDn := fun k => (P.dN (q (g * (nb + 6) + (nb + 4))) (q (g * (nb + 6) + (nb + 5)))).getD k 0
  dAmpDrh := fun k => (P.dRh (q (g * (nb + 6) + (nb + 4))) (q (g * (nb + 6) + (nb + 5)))).getD k 0

/-- A vector as a function of the index. -/
noncomputable def ext (q : Fin N → ℝ) (k : Nat) : ℝ := if h : k < N then q ⟨k, h⟩ else 0

/-- The point between the bounds meant by an unbounded vector. -/
noncomputable def physical (lower upper z : Fin N → ℝ) : Fin N → ℝ := fun i =>
  lower i + (upper i - lower i) / (1 + Real.exp (-z i))

/-- The logarithm of the posterior density of the data at the point, up to the constant of the data: minus half the
weighted squared residuals of every pixel of every exposure of every band (less those of an empty model), plus the log
prior, plus, when sampling, the logarithm of the volume of the change of variables. -/
noncomputable def logPosterior (u : Setup N) (P : Mixture) (z : Fin N → ℝ) : ℝ :=
  -(1 / 2) * ((List.range u.patch.length).map fun b => (((u.patch[b]?).getD []).map fun e => (e.pixels.map fun px =>
      px.ierr ^ 2 * (px.data - Kernel.specModel b u.nSources e
        (srcOf P u.patch.length (ext (physical u.transform.lower u.transform.upper z))) px.x px.y) ^ 2 -
      px.ierr ^ 2 * px.data ^ 2).sum).sum).sum +
    u.lnprior (physical u.transform.lower u.transform.upper z) +
    if u.sampling then ∑ i, Real.log ((u.transform.upper i - u.transform.lower i) *
      (Real.exp (-z i) / (1 + Real.exp (-z i)) ^ 2)) else 0

/-- A fit that is set up as forcepho does: at most 30 sources and bands, mixtures of `nr ≤ 10` gaussians given by the
splines, PSF gaussians that refer to these, and on the GPU whole warps and padded exposures. -/
structure Good (u : Setup N) (P : Mixture) (nr : Nat) : Prop where
  pos : 0 < u.nSources
  sources : u.nSources ≤ 30
  bands : u.patch.length ≤ 30
  dim : N = u.nSources * (u.patch.length + 6)
  radii : nr ≤ 10
  amps : ∀ s, u.splines.amps s = P.amps (s.attr .sersic) (s.attr .rhalf)
  dN : ∀ s, u.splines.dN s = P.dN (s.attr .sersic) (s.attr .rhalf)
  dRh : ∀ s, u.splines.dRh s = P.dRh (s.attr .sersic) (s.attr .rhalf)
  lens : ∀ a b, (P.amps a b).length = nr ∧ (P.dN a b).length = nr ∧ (P.dRh a b).length = nr
  bins : ∀ es ∈ u.patch, ∀ e ∈ es, ∀ p ∈ e.psfs, p.bin < nr
  device : ∀ B, u.dev = .gpu B → 0 < B ∧ 32 ∣ B ∧ ∀ es ∈ u.patch, ∀ e ∈ es, 32 ∣ e.pixels.length

/-- A scene of `n` free galaxies with fluxes in `nb` bands. -/
def SceneOk (nb n : Nat) (sc : Sources.Scene ℝ) : Prop :=
  sc.length = n ∧ ∀ s ∈ sc, s.WF ∧ s.cls = .galaxy true ∧ s.nBands = nb ∧ s.fixed = false

/-- Bounds in order, no axis ratio below zero, nonsingular scale matrices, and either sources of some extent
or PSFs of some extent. -/
structure Regular (u : Setup N) : Prop where
  bounds : ∀ i, u.transform.lower i < u.transform.upper i
  ratio : ∀ g < u.nSources, 0 ≤ ext u.transform.lower (g * (u.patch.length + 6) + (u.patch.length + 2))
  scale : ∀ es ∈ u.patch, ∀ e ∈ es, ∀ g < u.nSources, (e.astrom g).D.toMatrix.det ≠ 0
  extent : ∀ es ∈ u.patch, ∀ e ∈ es, ∀ p ∈ e.psfs,
    (0 < e.rad2 p.bin ∧ (Kernel.psfCov p).PosSemidef) ∨ (0 ≤ e.rad2 p.bin ∧ (Kernel.psfCov p).PosDef)

/-- At the point no pixel lies exactly on the ellipse at which a gaussian is cut off, the mixture has the derivatives it
reports, and the prior too. -/
structure Smooth (u : Setup N) (P : Mixture) (nr : Nat) (q : Fin N → ℝ) : Prop where
  off : ∀ (b : Nat) (es : List Kernel.Exposure), u.patch[b]? = some es → ∀ g < u.nSources,
    Kernel.OffThreshold b es g (srcOf P u.patch.length (ext q) g)
  dN : ∀ g < u.nSources, ∀ k < nr, ∀ a r : ℝ, a = ext q (g * (u.patch.length + 6) + (u.patch.length + 4)) →
    r = ext q (g * (u.patch.length + 6) + (u.patch.length + 5)) →
    HasDerivAt (fun t => (P.amps t r).getD k 0) ((P.dN a r).getD k 0) a
  dRh : ∀ g < u.nSources, ∀ k < nr, ∀ a r : ℝ, a = ext q (g * (u.patch.length + 6) + (u.patch.length + 4)) →
    r = ext q (g * (u.patch.length + 6) + (u.patch.length + 5)) →
    HasDerivAt (fun t => (P.amps a t).getD k 0) ((P.dRh a r).getD k 0) r
  prior : ∀ i, HasDerivAt (fun x => u.lnprior (Function.update q i x)) (u.lnpriorGrad q i) (q i)

/-! ## Sources that the kernel cannot tell apart -/

/-- Agreement of what chi-square depends on. -/
def SameV (b nr : Nat) (s s' : Kernel.Source) : Prop :=
  s.ra = s'.ra ∧ s.dec = s'.dec ∧ s.q = s'.q ∧ s.pa = s'.pa ∧ s.fluxes b = s'.fluxes b ∧ ∀ k < nr, s.amps k = s'.amps k

/-- Agreement of all that is read. -/
def Same (b nr : Nat) (s s' : Kernel.Source) : Prop :=
  SameV b nr s s' ∧ ∀ k < nr, s.dAmpDrh k = s'.dAmpDrh k ∧ s.dAmpDn k = s'.dAmpDn k

lemma imGauss_same {b nr : Nat} {s s' : Kernel.Source} (h : Same b nr s s') (e : Kernel.Exposure) (g : Nat)
    (p : Kernel.Psf) (hp : p.bin < nr) : Kernel.imGauss b e g s p = Kernel.imGauss b e g s' p := by
  obtain ⟨⟨h1, h2, h3, h4, h5, h6⟩, h7⟩ := h
  unfold Kernel.imGauss
  congr 1
  unfold Kernel.pixGauss
  rw [h1, h2, h3, h4, h5, h6 _ hp, (h7 _ hp).1, (h7 _ hp).2]

lemma contrib_same {b nr : Nat} {s s' : Kernel.Source} (h : SameV b nr s s') (e : Kernel.Exposure) (g : Nat)
    (p : Kernel.Psf) (hp : p.bin < nr) (x y : ℝ) :
    Kernel.contrib (Kernel.imGauss b e g s p) x y = Kernel.contrib (Kernel.imGauss b e g s' p) x y := by
  obtain ⟨h1, h2, h3, h4, h5, h6⟩ := h
  have hc : ∀ a : Kernel.ImGauss, ∀ a' : Kernel.ImGauss, a.amp = a'.amp → a.xcen = a'.xcen → a.ycen = a'.ycen →
      a.fxx = a'.fxx → a.fyy = a'.fyy → a.fxy = a'.fxy → Kernel.contrib a x y = Kernel.contrib a' x y := by
    intro a a' e1 e2 e3 e4 e5 e6
    unfold Kernel.contrib Kernel.expArg Kernel.hCorr
    simp only [e1, e2, e3, e4, e5, e6]
  apply hc <;>
    simp only [Kernel.imGauss, Kernel.getGaussianAndJacobian, Kernel.pixGauss, Kernel.covariance, h1, h2, h3, h4, h5,
      h6 _ hp]

lemma evaluate_same {b nr n : Nat} {src src' : Nat → Kernel.Source} (es : List Kernel.Exposure)
    (hb : ∀ e ∈ es, ∀ p ∈ e.psfs, p.bin < nr) (h : ∀ g < n, Same b nr (src g) (src' g)) :
    Kernel.evaluate b n es src = Kernel.evaluate b n es src' := by
  unfold Kernel.evaluate
  apply List.foldl_ext
  intro acc e he
  unfold Kernel.exposureStep
  have : Kernel.createImageGaussians b e n src = Kernel.createImageGaussians b e n src' := by
    unfold Kernel.createImageGaussians
    congr 1
    apply List.map_congr_left
    intro g hg
    unfold Kernel.sourceGauss
    apply List.map_congr_left
    intro p hp
    exact imGauss_same (h g (List.mem_range.1 hg)) e g p (hb e he p hp)
  rw [this]

lemma chi2_same {b nr n : Nat} {src src' : Nat → Kernel.Source} (es : List Kernel.Exposure)
    (hb : ∀ e ∈ es, ∀ p ∈ e.psfs, p.bin < nr) (h : ∀ g < n, SameV b nr (src g) (src' g)) :
    (Kernel.evaluate b n es src).chi2 = (Kernel.evaluate b n es src').chi2 := by
  rw [Kernel.evaluate_chi2, Kernel.evaluate_chi2]
  congr 1
  apply List.map_congr_left
  intro e he
  congr 1
  apply List.map_congr_left
  intro px _
  rw [Kernel.pixelChi2_eq, Kernel.pixelChi2_eq, Kernel.sum_contrib, Kernel.sum_contrib]
  have : ((List.range n).map fun g => (e.psfs.map fun p =>
        Kernel.contrib (Kernel.imGauss b e g (src g) p) px.x px.y).sum).sum =
      ((List.range n).map fun g => (e.psfs.map fun p =>
        Kernel.contrib (Kernel.imGauss b e g (src' g) p) px.x px.y).sum).sum := by
    congr 1
    apply List.map_congr_left
    intro g hg
    congr 1
    apply List.map_congr_left
    intro p hp
    exact contrib_same (h g (List.mem_range.1 hg)) e g p (hb e he p hp) _ _
  rw [this]

/-! ## Indices -/

lemma idx_inj {w g g' j j' : Nat} (hj : j < w) (hj' : j' < w) (h : g * w + j = g' * w + j') : g = g' ∧ j = j' := by
  have h1 : (g * w + j) / w = g := by
    rw [Nat.mul_comm, Nat.mul_add_div (by omega), Nat.div_eq_of_lt hj, Nat.add_zero]
  have h2 : (g' * w + j') / w = g' := by
    rw [Nat.mul_comm, Nat.mul_add_div (by omega), Nat.div_eq_of_lt hj', Nat.add_zero]
  have : g = g' := by rw [← h1, h, h2]
  subst this
  exact ⟨rfl, by omega⟩

lemma update_idx (q : Nat → ℝ) (w s j0 : Nat) (hj0 : j0 < w) (x : ℝ) (g j : Nat) (hj : j < w) :
    Function.update q (s * w + j0) x (g * w + j) = if g = s ∧ j = j0 then x else q (g * w + j) := by
  by_cases h : g = s ∧ j = j0
  · obtain ⟨rfl, rfl⟩ := h; simp
  · rw [if_neg h, Function.update_of_ne]
    intro he
    exact h (idx_inj hj hj0 he)

lemma ext_update (q : Fin N → ℝ) (i : Fin N) (x : ℝ) : ext (Function.update q i x) = Function.update (ext q) i x := by
  funext k
  by_cases h : k = i.val
  · subst h; simp [ext]
  · rw [Function.update_of_ne h]
    unfold ext
    by_cases hk : k < N
    · rw [dif_pos hk, dif_pos hk, Function.update_of_ne]
      intro e
      exact h (by rw [← e])
    · rw [dif_neg hk, dif_neg hk]

/-! ## The transform -/

lemma physical_eq (t : Transform.Bounded N) (z : Fin N → ℝ) : t.transform z = physical t.lower t.upper z := by
  funext i
  simp only [Transform.Bounded.transform, physical, Transform.sigmoid, Transform.Bounded.range]
  ring

lemma volume_eq (t : Transform.Bounded N) (hb : ∀ i, t.lower i < t.upper i) (z : Fin N → ℝ) :
    t.lndetjac z = ∑ i, Real.log ((t.upper i - t.lower i) * (Real.exp (-z i) / (1 + Real.exp (-z i)) ^ 2)) := by
  have hj : ∀ i, t.jacobian z i = (t.upper i - t.lower i) * (Real.exp (-z i) / (1 + Real.exp (-z i)) ^ 2) := by
    intro i
    unfold Transform.Bounded.jacobian Transform.Bounded.range
    rw [Transform.sigmoidGrad_eq]
    unfold Transform.sigmoid
    have := Real.exp_pos (-z i)
    field_simp
    ring
  have hp : ∀ i, 0 < t.jacobian z i := by
    intro i
    rw [hj]
    have := Real.exp_pos (-z i)
    have := sub_pos.2 (hb i)
    positivity
  unfold Transform.Bounded.lndetjac
  rw [abs_of_pos (Finset.prod_pos fun i _ => hp i), Real.log_prod (fun i _ => (hp i).ne')]
  exact Finset.sum_congr rfl fun i _ => by rw [hj]

/-! ## Stacking -/

lemma stackGrad_congr (n nb : Nat) (d d' : List (Posterior.Stack.Derivs ℝ)) (hd : d.length = nb) (hd' : d'.length = nb)
    (h : ∀ (b : Nat) (x x' : Posterior.Stack.Derivs ℝ), d[b]? = some x → d'[b]? = some x' → ∀ s < n, ∀ j < 7, x s j = x' s j) :
    Posterior.Stack.stackGrad n nb d = Posterior.Stack.stackGrad n nb d' := by
  obtain ⟨l1, f1, s1⟩ := Posterior.Stack.C28_layout n nb d hd
  obtain ⟨l2, f2, s2⟩ := Posterior.Stack.C28_layout n nb d' hd'
  apply List.ext_getElem?
  intro p
  by_cases hp : p < n * (nb + 6)
  · have hps : p = p / (nb + 6) * (nb + 6) + p % (nb + 6) := by
      rw [Nat.mul_comm]; exact (Nat.div_add_mod p (nb + 6)).symm
    have hsl : p / (nb + 6) < n := by
      rw [Nat.div_lt_iff_lt_mul (by omega)]; exact hp
    have hjl : p % (nb + 6) < nb + 6 := Nat.mod_lt _ (by omega)
    generalize p / (nb + 6) = s at *
    generalize p % (nb + 6) = j at *
    subst hps
    by_cases hjb : j < nb
    · have e1 : d[j]? = some (d[j]'(by omega)) := List.getElem?_eq_getElem (by omega)
      have e2 : d'[j]? = some (d'[j]'(by omega)) := List.getElem?_eq_getElem (by omega)
      rw [f1 s j _ hsl e1, f2 s j _ hsl e2, h j _ _ e1 e2 s hsl 0 (by omega)]
    · obtain ⟨k, rfl⟩ : ∃ k, j = nb + k := ⟨j - nb, by omega⟩
      rw [s1 s k hsl (by omega), s2 s k hsl (by omega)]
      congr 2
      apply List.ext_getElem?
      intro b
      rw [List.getElem?_map, List.getElem?_map]
      by_cases hb : b < nb
      · have e1 : d[b]? = some (d[b]'(by omega)) := List.getElem?_eq_getElem (by omega)
        have e2 : d'[b]? = some (d'[b]'(by omega)) := List.getElem?_eq_getElem (by omega)
        rw [e1, e2, Option.map_some, Option.map_some, h b _ _ e1 e2 s hsl (k + 1) (by omega)]
      · rw [List.getElem?_eq_none (by omega), List.getElem?_eq_none (by omega)]
  · rw [List.getElem?_eq_none (by omega), List.getElem?_eq_none (by omega)]

/-! ## The scene and the proposal -/

lemma total_eq {nb : Nat} {sc : Sources.Scene ℝ}
    (h : ∀ s ∈ sc, s.WF ∧ s.cls = .galaxy true ∧ s.nBands = nb ∧ s.fixed = false) :
    Sources.total sc = sc.length * (nb + 6) := by
  induction sc with
  | nil => simp [Sources.total]
  | cons s t ih =>
    obtain ⟨-, h2, h3, h4⟩ := h s (by simp)
    rw [Sources.total_cons_active s t h4, ih fun x hx => h x (by simp [hx])]
    have : s.nParams = nb + 6 := by
      unfold Sources.Source.nParams
      rw [h2, h3]
      simp [Sources.npos, Sources.nshape]
      omega
    rw [this, List.length_cons]
    ring

/-- The sources of the scene have the parameters of the vector. -/
def Holds (nb : Nat) (sc : Sources.Scene ℝ) (q : Nat → ℝ) : Prop :=
  ∀ (g : Nat) (s : Sources.Source ℝ), sc[g]? = some s →
    (∀ b < nb, s.flux[b]? = some (q (g * (nb + 6) + b))) ∧
    s.attr .ra = q (g * (nb + 6) + (nb + 0)) ∧ s.attr .dec = q (g * (nb + 6) + (nb + 1)) ∧
    s.attr .q = q (g * (nb + 6) + (nb + 2)) ∧ s.attr .pa = q (g * (nb + 6) + (nb + 3)) ∧
    s.attr .sersic = q (g * (nb + 6) + (nb + 4)) ∧ s.attr .rhalf = q (g * (nb + 6) + (nb + 5))

lemma scene_set {nb n : Nat} (hn : 0 < n) (hN : N = n * (nb + 6)) (sc : Sources.Scene ℝ) (h : SceneOk nb n sc)
    (q : Fin N → ℝ) : ∃ sc', Sources.setAll sc (List.ofFn q) = (sc', none) ∧ SceneOk nb n sc' ∧ Holds nb sc' (ext q) := by
  obtain ⟨hl, hs⟩ := h
  have htot := total_eq hs
  have hlen : (List.ofFn q).length = Sources.total sc := by rw [List.length_ofFn, htot, hl, hN]
  obtain ⟨sc', e1, e2, e3, e4⟩ := (Sources.C22_scene sc (List.ofFn q) fun s hs' =>
    ⟨(hs s hs').1, by rw [(hs s hs').2.1]; simp⟩).1 hlen.ge
  have hok : ∀ s ∈ sc', s.WF ∧ s.cls = .galaxy true ∧ s.nBands = nb ∧ s.fixed = false := by
    intro s' hs'
    obtain ⟨i, hi⟩ := List.getElem?_of_mem hs'
    have hil : i < sc.length := by
      rw [← e2]; exact (List.getElem?_eq_some_iff.1 hi).1
    obtain ⟨s'', f1, -, f3, f4, f5, f6, -, -⟩ := e3 i _ (List.getElem?_eq_getElem hil)
    rw [hi] at f1
    obtain rfl := Option.some.inj f1
    obtain ⟨-, g2, g3, g4⟩ := hs _ (List.getElem_mem hil)
    refine ⟨f6, f4.trans g2, ?_, f3.trans g4⟩
    unfold Sources.Source.nBands at g3 ⊢
    rw [f5]; exact g3
  have hne : sc' ≠ [] := by
    intro h0
    rw [h0] at e2
    simp at e2
    omega
  have hex : ∃ s ∈ sc, s.fixed = false := by
    have : 0 < sc.length := by omega
    exact ⟨sc[0], List.getElem_mem this, (hs _ (List.getElem_mem this)).2.2.2⟩
  obtain ⟨theta, t1, -, t3⟩ := Posterior.Stack.C28_matches_scene nb sc' hne hok
  rw [e4 hex] at t1
  have ht : theta = List.ofFn q := by
    have := Except.ok.inj t1
    rw [← this, ← hlen, List.take_length]
  subst ht
  refine ⟨sc', e1, ⟨by rw [e2, hl], hok⟩, ?_⟩
  intro g s hg
  obtain ⟨k1, k2⟩ := t3 g s hg
  have hgl : g < n := by
    rw [← hl, ← e2]; exact (List.getElem?_eq_some_iff.1 hg).1
  have hidx : ∀ j, j < nb + 6 → (List.ofFn q)[g * (nb + 6) + j]? = some (ext q (g * (nb + 6) + j)) := by
    intro j hj
    have : g * (nb + 6) + j < N := by
      rw [hN]
      calc g * (nb + 6) + j < g * (nb + 6) + (nb + 6) := by omega
        _ = (g + 1) * (nb + 6) := by ring
        _ ≤ n * (nb + 6) := Nat.mul_le_mul_right _ hgl
    rw [List.getElem?_ofFn, dif_pos this, ext, dif_pos this]
  refine ⟨fun b hb => by rw [← k1 b hb, hidx b (by omega)], ?_⟩
  have hk : ∀ (k : Nat) (a : Sources.Attr), Posterior.Stack.kernelOrder[k]? = some a → k < 6 →
      s.attr a = ext q (g * (nb + 6) + (nb + k)) := by
    intro k a ha hk
    have := k2 k a ha
    rw [hidx (nb + k) (by omega)] at this
    exact (Option.some.inj this).symm
  exact ⟨hk 0 _ rfl (by omega), hk 1 _ rfl (by omega), hk 2 _ rfl (by omega), hk 3 _ rfl (by omega),
    hk 4 _ rfl (by omega), hk 5 _ rfl (by omega)⟩

lemma filled_getD {buf mem vals : List ℝ} (h : Sources.Filled buf mem vals) (k : Nat) (hk : k < vals.length) :
    buf.getD k 0 = vals.getD k 0 := by
  rw [List.getD_eq_getElem?_getD, List.getD_eq_getElem?_getD, h.2.1 k hk]

lemma proposal_same {u : Setup N} {P : Mixture} {nr : Nat} (hu : Good u P nr)
    (mem : Sources.Source ℝ → Sources.Proposal ℝ) (hm : ∀ s, (mem s).Sized) (sc : Sources.Scene ℝ)
    (hs : SceneOk u.patch.length u.nSources sc) (q : Nat → ℝ) (hq : Holds u.patch.length sc q) :
    ∃ ps, Sources.getProposal u.splines mem sc true = .ok ps ∧ ps.length = u.nSources ∧
      ∀ g < u.nSources, ∀ b < u.patch.length, Same b nr (entry ps g) (srcOf P u.patch.length q g) := by
  obtain ⟨hl, hs⟩ := hs
  have hfit : ∀ s ∈ sc, s.fixed = (!true) → Sources.Fits u.splines s := by
    intro s h _
    obtain ⟨h1, h2, h3, -⟩ := hs s h
    have hb := hu.bands
    have hr := hu.radii
    obtain ⟨l1, l2, l3⟩ := hu.lens (s.attr .sersic) (s.attr .rhalf)
    refine ⟨⟨true, Or.inl h2⟩, ?_, ?_, ?_, ?_⟩
    · unfold Sources.Source.WF at h1
      unfold Sources.Source.nBands at h3
      omega
    · rw [hu.amps]; omega
    · rw [hu.dRh]; omega
    · rw [hu.dN]; omega
  have hex : ∃ s ∈ sc, s.fixed = !true := by
    have : 0 < sc.length := by rw [hl]; exact hu.pos
    exact ⟨sc[0], List.getElem_mem this, (hs _ (List.getElem_mem this)).2.2.2⟩
  obtain ⟨ps, e1, e2⟩ := (Sources.C25_proposal_partial u.splines mem hm sc true).1 hex hfit
  have hfil : (sc.filter fun s => s.fixed == !true) = sc := by
    rw [List.filter_eq_self]
    intro s h
    simp [(hs s h).2.2.2]
  rw [hfil] at e2
  have hpl : ps.length = u.nSources := by rw [← e2.length_eq, hl]
  refine ⟨ps, e1, hpl, ?_⟩
  intro g hg b hb
  have hg1 : g < sc.length := by rw [hl]; exact hg
  have hg2 : g < ps.length := by rw [hpl]; exact hg
  obtain ⟨d1, d2, d3, d4, -, -, d5, d6, d7, d8⟩ := e2.get hg1 hg2
  obtain ⟨q0, q1, q2, q3, q4, q5, q6⟩ := hq g sc[g] (List.getElem?_eq_getElem hg1)
  have hent : entry ps g = kernelSource ps[g] := by
    unfold entry
    rw [List.getElem?_eq_getElem hg2]
    rfl
  simp only [List.get_eq_getElem] at d1 d2 d3 d4 d5 d6 d7 d8
  obtain ⟨l1, l2, l3⟩ := hu.lens (sc[g].attr .sersic) (sc[g].attr .rhalf)
  have hfl : b < sc[g].flux.length := (List.getElem?_eq_some_iff.1 (q0 b hb)).1
  rw [hu.amps] at d6
  rw [hu.dRh] at d7
  rw [hu.dN] at d8
  rw [hent]
  refine ⟨⟨?_, ?_, ?_, ?_, ?_, fun k hk => ?_⟩, fun k hk => ⟨?_, ?_⟩⟩
  · simp only [kernelSource, srcOf]; rw [d1, q1]
  · simp only [kernelSource, srcOf]; rw [d2, q2]
  · simp only [kernelSource, srcOf]; rw [d3, q3]
  · simp only [kernelSource, srcOf]; rw [d4, q4]
  · simp only [kernelSource, srcOf]
    rw [filled_getD d5 b hfl, List.getD_eq_getElem?_getD, q0 b hb]
    rfl
  · simp only [kernelSource, srcOf]
    rw [filled_getD d6 k (by omega), q5, q6]
  · simp only [kernelSource, srcOf]
    rw [filled_getD d7 k (by omega), q5, q6]
  · simp only [kernelSource, srcOf]
    rw [filled_getD d8 k (by omega), q5, q6]

/-! ## The answers in terms of the kernel -/

/-- The parameter of column `j` of the response. -/
def col : Nat → Kernel.Param
  | 0 => .flux
  | 1 => .ra
  | 2 => .dec
  | 3 => .q
  | 4 => .pa
  | 5 => .sersic
  | _ => .rh

lemma col_idx (j : Nat) (hj : j < 7) : (col j).idx = j := by
  match j, hj with
  | 0, _ => rfl
  | 1, _ => rfl
  | 2, _ => rfl
  | 3, _ => rfl
  | 4, _ => rfl
  | 5, _ => rfl
  | 6, _ => rfl
  | n + 7, h => omega

/-- The kernel on the sources of the vector, for band `b`. -/
noncomputable def ker (u : Setup N) (P : Mixture) (q : Nat → ℝ) (b : Nat) : Kernel.Acc :=
  Kernel.evaluate b u.nSources ((u.patch[b]?).getD []) (srcOf P u.patch.length q)

lemma launch_agree {u : Setup N} {P : Mixture} {nr : Nat} (hu : Good u P nr) {b : Nat} {es : List Kernel.Exposure}
    (hes : u.patch[b]? = some es) {src : Nat → Kernel.Source} {acc : Kernel.Acc}
    (h : Launch u.dev b u.nSources es src acc) :
    acc.chi2 = (Kernel.evaluate b u.nSources es src).chi2 ∧
    ∀ g < u.nSources, ∀ prm, acc.grad g prm = (Kernel.evaluate b u.nSources es src).grad g prm := by
  have hd := hu.device
  unfold Launch at h
  cases hdev : u.dev with
  | cpu => rw [hdev] at h; simp only at h; subst h; exact ⟨rfl, fun _ _ _ => rfl⟩
  | gpu B =>
    rw [hdev] at h
    obtain ⟨h1, h2, h3⟩ := hd B hdev
    exact Kernel.C52_agree_partial b B u.nSources src h1 h2 es (h3 es (List.mem_of_getElem? hes)) acc h

lemma launch_exists (dev : Device) (b n : Nat) (es : List Kernel.Exposure) (src : Nat → Kernel.Source) :
    ∃ acc, Launch dev b n es src acc := by
  cases dev with
  | cpu => exact ⟨_, rfl⟩
  | gpu B => exact Kernel.C52_run_exists b B n src es _

lemma returned_facts {u : Setup N} {P : Mixture} {nr : Nat} (hu : Good u P nr) {q : Nat → ℝ}
    {ps : List (Sources.Proposal ℝ)} (hps : ∀ g < u.nSources, ∀ b < u.patch.length, Same b nr (entry ps g) (srcOf P u.patch.length q g))
    {chi2 : List ℝ} {derivs : List (List (List ℝ))} (h : Returned u ps chi2 derivs) :
    chi2 = (List.range u.patch.length).map (fun b => (ker u P q b).chi2) ∧
    Posterior.Stack.stackGrad u.nSources u.patch.length (derivs.map rowAt) =
      Posterior.Stack.stackGrad u.nSources u.patch.length
        ((List.range u.patch.length).map fun b s j => (ker u P q b).grad s (col j)) := by
  obtain ⟨-, accs, hlen, hrun, hchi, hder⟩ := h
  have hagree : ∀ (b : Nat) (acc : Kernel.Acc), accs[b]? = some acc → acc.chi2 = (ker u P q b).chi2 ∧
      ∀ g < u.nSources, ∀ prm, acc.grad g prm = (ker u P q b).grad g prm := by
    intro b acc hacc
    have hb : b < u.patch.length := by
      rw [← hlen]; exact (List.getElem?_eq_some_iff.1 hacc).1
    have hes : u.patch[b]? = some u.patch[b] := List.getElem?_eq_getElem hb
    have := launch_agree hu hes (hrun b _ acc hes hacc)
    unfold ker
    rw [hes, Option.getD_some]
    rw [evaluate_same (nr := nr) u.patch[b] (hu.bins _ (List.getElem_mem hb)) fun g hg => hps g hg b hb] at this
    exact this
  constructor
  · rw [hchi]
    apply List.ext_getElem?
    intro b
    rw [List.getElem?_map, List.getElem?_map]
    by_cases hb : b < u.patch.length
    · have e1 : accs[b]? = some (accs[b]'(by omega)) := List.getElem?_eq_getElem (by omega)
      rw [e1, List.getElem?_range hb, Option.map_some, Option.map_some, (hagree b _ e1).1]
    · rw [List.getElem?_eq_none (by omega), List.getElem?_eq_none (by simp; omega)]
      rfl
  · have hdl : derivs.length = u.patch.length := by rw [← hder.length_eq, hlen]
    apply stackGrad_congr
    · rw [List.length_map, hdl]
    · rw [List.length_map, List.length_range]
    · intro b x x' hx hx' s hs j hj
      rw [List.getElem?_map] at hx hx'
      obtain ⟨rows, hr, rfl⟩ := Option.map_eq_some_iff.1 hx
      obtain ⟨b', hb', rfl⟩ := Option.map_eq_some_iff.1 hx'
      obtain ⟨hbl, rfl⟩ := List.getElem?_eq_some_iff.1 hr
      have hb2 : b < u.patch.length := by omega
      rw [List.getElem?_range hb2] at hb'
      obtain rfl := Option.some.inj hb'
      obtain ⟨buf, hbuf, hrows⟩ := hder.get (i := b) (by omega) (by omega)
      simp only [List.get_eq_getElem] at hbuf hrows
      have e1 : accs[b]? = some (accs[b]'(by omega)) := List.getElem?_eq_getElem (by omega)
      obtain ⟨buf', c1, -, -, -, -, c6⟩ := Kernel.C53_rows u.nSources hu.sources (accs[b]'(by omega)).grad
      rw [hbuf] at c1
      obtain rfl := Option.some.inj c1
      obtain ⟨row, r1, -, r3⟩ := c6 s hs
      unfold rowAt
      rw [hrows, r1, Option.bind_some]
      have := r3 (col j)
      rw [col_idx j hj] at this
      rw [this, Option.getD_some]
      exact (hagree b _ e1).2 s hs (col j)

/-- The pieces `evaluate` combines, computed by the kernel on the sources of the vector. -/
noncomputable def pieces (u : Setup N) (P : Mixture) : Transform.Ingredients N where
  chi2 := fun q => (List.range u.patch.length).map fun b => (ker u P (ext q) b).chi2
  dchi2 := fun q i => (Posterior.Stack.stackGrad u.nSources u.patch.length
    ((List.range u.patch.length).map fun b s j => (ker u P (ext q) b).grad s (col j))).getD i 0
  lnprior := u.lnprior
  lnpriorGrad := u.lnpriorGrad

/-- What `evaluate` returns, in terms of the kernel on the sources of the vector. -/
lemma evaluated_facts {u : Setup N} {P : Mixture} {nr : Nat} (hu : Good u P nr)
    {mem : Sources.Source ℝ → Sources.Proposal ℝ} (hm : ∀ s, (mem s).Sized) {sc : Sources.Scene ℝ}
    (hs : SceneOk u.patch.length u.nSources sc) {z : Fin N → ℝ} {sc' : Sources.Scene ℝ} {L : ℝ} {G : Fin N → ℝ}
    (h : Evaluated u mem sc z sc' L G) :
    SceneOk u.patch.length u.nSources sc' ∧ Holds u.patch.length sc' (ext (u.transform.transform z)) ∧
    L = Transform.lnp (pieces u P) u.transform u.sampling z ∧
    G = Transform.lnpGrad (pieces u P) u.transform u.sampling z := by
  obtain ⟨h1, ps, chi2, derivs, h2, h3, -, h5, h6⟩ := h
  obtain ⟨sc'', e1, e2, e3⟩ := scene_set hu.pos hu.dim sc hs (u.transform.transform z)
  rw [h1] at e1
  obtain rfl : sc' = sc'' := by simpa using e1
  obtain ⟨ps', p1, -, p3⟩ := proposal_same hu mem hm sc' e2 _ e3
  rw [h2] at p1
  obtain rfl := Except.ok.inj p1
  obtain ⟨r1, r2⟩ := returned_facts hu p3 h3
  refine ⟨e2, e3, ?_, ?_⟩
  · rw [h5]
    simp only [Transform.lnp, pieces, r1]
  · rw [h6]
    simp only [Transform.lnpGrad, pieces, r2]

/-! ## Derivatives by the entries of the vector -/

section deriv
variable {u : Setup N} {P : Mixture} {nr : Nat} (hu : Good u P nr) {q : Nat → ℝ} {s b : Nat} (hs : s < u.nSources)
  (hb : b < u.patch.length) (hoff : Kernel.OffThreshold b ((u.patch[b]?).getD []) s (srcOf P u.patch.length q s))
include hu hs hb hoff

lemma bins_getD : ∀ e ∈ (u.patch[b]?).getD [], ∀ p ∈ e.psfs, p.bin < nr := by
  rw [List.getElem?_eq_getElem hb]
  exact hu.bins _ (List.getElem_mem hb)

lemma ker_flux : HasDerivAt (fun x => (ker u P (Function.update q (s * (u.patch.length + 6) + b) x) b).chi2)
    ((ker u P q b).grad s .flux) (q (s * (u.patch.length + 6) + b)) := by
  refine Transform.hdc (Kernel.C50_gradient_flux b u.nSources _ (srcOf P u.patch.length q) s hs hoff) (fun x => ?_) rfl
  unfold ker
  apply chi2_same (nr := nr) _ (bins_getD hu hs hb hoff)
  intro g _
  have U := fun j hj => update_idx q (u.patch.length + 6) s b (by omega) x g j hj
  by_cases hg : g = s
  · subst hg
    rw [Function.update_self]
    refine ⟨?_, ?_, ?_, ?_, ?_, fun k hk => ?_⟩
    · simp only [srcOf]; rw [U _ (by omega), if_neg (by omega)]
    · simp only [srcOf]; rw [U _ (by omega), if_neg (by omega)]
    · simp only [srcOf]; rw [U _ (by omega), if_neg (by omega)]
    · simp only [srcOf]; rw [U _ (by omega), if_neg (by omega)]
    · simp only [srcOf]; rw [U _ (by omega), if_pos ⟨rfl, rfl⟩, Function.update_self]
    · simp only [srcOf]; rw [U _ (by omega), if_neg (by omega), U _ (by omega), if_neg (by omega)]
  · rw [Function.update_of_ne hg]
    refine ⟨?_, ?_, ?_, ?_, ?_, fun k hk => ?_⟩
    · simp only [srcOf]; rw [U _ (by omega), if_neg (by omega)]
    · simp only [srcOf]; rw [U _ (by omega), if_neg (by omega)]
    · simp only [srcOf]; rw [U _ (by omega), if_neg (by omega)]
    · simp only [srcOf]; rw [U _ (by omega), if_neg (by omega)]
    · simp only [srcOf]; rw [U _ (by omega), if_neg (by omega)]
    · simp only [srcOf]; rw [U _ (by omega), if_neg (by omega), U _ (by omega), if_neg (by omega)]

omit hs hoff in
lemma ker_other {b' : Nat} (hb' : b' < u.patch.length) (hne : b ≠ b') :
    HasDerivAt (fun x => (ker u P (Function.update q (s * (u.patch.length + 6) + b') x) b).chi2) 0
      (q (s * (u.patch.length + 6) + b')) := by
  refine Transform.hdc (hasDerivAt_const _ (ker u P q b).chi2) (fun x => ?_) rfl
  unfold ker
  have hbin : ∀ e ∈ (u.patch[b]?).getD [], ∀ p ∈ e.psfs, p.bin < nr := by
    rw [List.getElem?_eq_getElem hb]
    exact hu.bins _ (List.getElem_mem hb)
  apply chi2_same (nr := nr) _ hbin
  intro g _
  have U := fun j hj => update_idx q (u.patch.length + 6) s b' (by omega) x g j hj
  refine ⟨?_, ?_, ?_, ?_, ?_, fun k hk => ?_⟩
  · simp only [srcOf]; rw [U _ (by omega), if_neg (by omega)]
  · simp only [srcOf]; rw [U _ (by omega), if_neg (by omega)]
  · simp only [srcOf]; rw [U _ (by omega), if_neg (by omega)]
  · simp only [srcOf]; rw [U _ (by omega), if_neg (by omega)]
  · simp only [srcOf]; rw [U _ (by omega), if_neg (by omega)]
  · simp only [srcOf]; rw [U _ (by omega), if_neg (by omega), U _ (by omega), if_neg (by omega)]

lemma ker_shape (hq : (srcOf P u.patch.length q s).q ≠ 0)
    (hdet : ∀ e ∈ (u.patch[b]?).getD [], ∀ p ∈ e.psfs, 0 < (Kernel.imCov b e s (srcOf P u.patch.length q s) p).det)
    (hN : ∀ k < nr, ∀ a r : ℝ, a = q (s * (u.patch.length + 6) + (u.patch.length + 4)) →
      r = q (s * (u.patch.length + 6) + (u.patch.length + 5)) →
      HasDerivAt (fun t => (P.amps t r).getD k 0) ((P.dN a r).getD k 0) a)
    (hR : ∀ k < nr, ∀ a r : ℝ, a = q (s * (u.patch.length + 6) + (u.patch.length + 4)) →
      r = q (s * (u.patch.length + 6) + (u.patch.length + 5)) →
      HasDerivAt (fun t => (P.amps a t).getD k 0) ((P.dRh a r).getD k 0) r) (j : Nat) (hj : j < 6) :
    HasDerivAt (fun x => (ker u P (Function.update q (s * (u.patch.length + 6) + (u.patch.length + j)) x) b).chi2)
      ((ker u P q b).grad s (col (j + 1))) (q (s * (u.patch.length + 6) + (u.patch.length + j))) := by
  have hbin := bins_getD hu hs hb hoff
  have U := fun x g i hi => update_idx q (u.patch.length + 6) s (u.patch.length + j) (by omega) x g i hi
  have hbeyond : ∀ (k : Nat) (l : List ℝ), l.length = nr → ¬ k < nr → l.getD k 0 = 0 := by
    intro k l hl hk
    rw [List.getD_eq_getElem?_getD, List.getElem?_eq_none (by omega)]
    rfl
  have hother : ∀ (x : ℝ) (g : Nat) (c : Kernel.Source), g ≠ s →
      SameV b nr (srcOf P u.patch.length (Function.update q (s * (u.patch.length + 6) + (u.patch.length + j)) x) g)
        (Function.update (srcOf P u.patch.length q) s c g) := by
    intro x g c hg
    rw [Function.update_of_ne hg]
    refine ⟨?_, ?_, ?_, ?_, ?_, fun k hk => ?_⟩
    · simp only [srcOf]; rw [U _ _ _ (by omega), if_neg (by omega)]
    · simp only [srcOf]; rw [U _ _ _ (by omega), if_neg (by omega)]
    · simp only [srcOf]; rw [U _ _ _ (by omega), if_neg (by omega)]
    · simp only [srcOf]; rw [U _ _ _ (by omega), if_neg (by omega)]
    · simp only [srcOf]; rw [U _ _ _ (by omega), if_neg (by omega)]
    · simp only [srcOf]; rw [U _ _ _ (by omega), if_neg (by omega), U _ _ _ (by omega), if_neg (by omega)]
  have hstep : ∀ (x : ℝ) (c : Kernel.Source),
      SameV b nr (srcOf P u.patch.length (Function.update q (s * (u.patch.length + 6) + (u.patch.length + j)) x) s) c →
      (ker u P (Function.update q (s * (u.patch.length + 6) + (u.patch.length + j)) x) b).chi2 =
        (Kernel.evaluate b u.nSources ((u.patch[b]?).getD [])
          (Function.update (srcOf P u.patch.length q) s c)).chi2 := by
    intro x c hc
    unfold ker
    apply chi2_same (nr := nr) _ hbin
    intro g _
    by_cases hg : g = s
    · subst hg; rw [Function.update_self]; exact hc
    · exact hother x g c hg
  have fin : ∀ (x : ℝ) (i : Nat), i < u.patch.length + 6 →
      Function.update q (s * (u.patch.length + 6) + (u.patch.length + j)) x (s * (u.patch.length + 6) + i) =
        if i = u.patch.length + j then x else q (s * (u.patch.length + 6) + i) := by
    intro x i hi
    rw [U x s i hi]
    simp
  have flx : ∀ x : ℝ, Function.update q (s * (u.patch.length + 6) + (u.patch.length + j)) x
      (s * (u.patch.length + 6) + b) = q (s * (u.patch.length + 6) + b) := by
    intro x
    rw [fin x b (by omega), if_neg (by omega)]
  interval_cases j
  · refine Transform.hdc (Kernel.C50_gradient_ra b u.nSources _ (srcOf P u.patch.length q) s hs hoff)
      (fun x => hstep x _ ?_) rfl
    refine ⟨?_, ?_, ?_, ?_, flx x, fun k hk => ?_⟩ <;> simp [srcOf, fin]
  · refine Transform.hdc (Kernel.C50_gradient_dec b u.nSources _ (srcOf P u.patch.length q) s hs hoff)
      (fun x => hstep x _ ?_) rfl
    refine ⟨?_, ?_, ?_, ?_, flx x, fun k hk => ?_⟩ <;> simp [srcOf, fin]
  · refine Transform.hdc (Kernel.C50_gradient_q b u.nSources _ (srcOf P u.patch.length q) s hs hoff hq hdet)
      (fun x => hstep x _ ?_) rfl
    refine ⟨?_, ?_, ?_, ?_, flx x, fun k hk => ?_⟩ <;> simp [srcOf, fin]
  · refine Transform.hdc (Kernel.C50_gradient_pa b u.nSources _ (srcOf P u.patch.length q) s hs hoff hdet)
      (fun x => hstep x _ ?_) rfl
    refine ⟨?_, ?_, ?_, ?_, flx x, fun k hk => ?_⟩ <;> simp [srcOf, fin]
  · refine Transform.hdc (Kernel.C50_gradient_sersic b u.nSources _ (srcOf P u.patch.length q) s hs hoff
      (fun t k => (P.amps t (q (s * (u.patch.length + 6) + (u.patch.length + 5)))).getD k 0)
      (q (s * (u.patch.length + 6) + (u.patch.length + 4))) rfl (fun k => ?_)) (fun x => hstep x _ ?_) rfl
    · by_cases hk : k < nr
      · exact hN k hk _ _ rfl rfl
      · refine Transform.hdc (hasDerivAt_const _ (0 : ℝ)) (fun t => ?_) ?_
        · exact hbeyond k _ (hu.lens _ _).1 hk
        · exact hbeyond k _ (hu.lens _ _).2.1 hk
    · refine ⟨?_, ?_, ?_, ?_, flx x, fun k hk => ?_⟩ <;> simp [srcOf, fin]
  · refine Transform.hdc (Kernel.C50_gradient_rh b u.nSources _ (srcOf P u.patch.length q) s hs hoff
      (fun t k => (P.amps (q (s * (u.patch.length + 6) + (u.patch.length + 4))) t).getD k 0)
      (q (s * (u.patch.length + 6) + (u.patch.length + 5))) rfl (fun k => ?_)) (fun x => hstep x _ ?_) rfl
    · by_cases hk : k < nr
      · exact hR k hk _ _ rfl rfl
      · refine Transform.hdc (hasDerivAt_const _ (0 : ℝ)) (fun t => ?_) ?_
        · exact hbeyond k _ (hu.lens _ _).1 hk
        · exact hbeyond k _ (hu.lens _ _).2.2 hk
    · refine ⟨?_, ?_, ?_, ?_, flx x, fun k hk => ?_⟩ <;> simp [srcOf, fin]

end deriv

/-! ## C136 -/

lemma ratio_pos {u : Setup N} {P : Mixture} {nr : Nat} (hu : Good u P nr) (hr : Regular u) (z : Fin N → ℝ) (g : Nat)
    (hg : g < u.nSources) : 0 < (srcOf P u.patch.length (ext (u.transform.transform z)) g).q := by
  have hi : g * (u.patch.length + 6) + (u.patch.length + 2) < N := by
    calc g * (u.patch.length + 6) + (u.patch.length + 2) < (g + 1) * (u.patch.length + 6) := by
          rw [Nat.add_mul]; omega
      _ ≤ u.nSources * (u.patch.length + 6) := Nat.mul_le_mul_right _ hg
      _ = N := hu.dim.symm
  have h0 := hr.ratio g hg
  have h1 := hr.bounds ⟨_, hi⟩
  simp only [srcOf]
  rw [ext, dif_pos hi] at h0 ⊢
  have h2 := Transform.sigmoid_pos (z ⟨_, hi⟩)
  unfold Transform.Bounded.transform Transform.Bounded.range
  nlinarith [mul_pos h2 (sub_pos.2 h1)]

lemma cov_pos {u : Setup N} {P : Mixture} {nr : Nat} (hu : Good u P nr) (hr : Regular u) (z : Fin N → ℝ) (b : Nat)
    (hb : b < u.patch.length) (g : Nat) (hg : g < u.nSources) : ∀ e ∈ (u.patch[b]?).getD [], ∀ p ∈ e.psfs,
      0 < (Kernel.imCov b e g (srcOf P u.patch.length (ext (u.transform.transform z)) g) p).det ∧
      0 < (Kernel.specCov e g (srcOf P u.patch.length (ext (u.transform.transform z)) g) p).det := by
  rw [List.getElem?_eq_getElem hb]
  intro e he p hp
  have hm := List.getElem_mem hb
  have h3 := Kernel.C49_positive_definite b e g (srcOf P u.patch.length (ext (u.transform.transform z)) g) p
    (ratio_pos hu hr z g hg).ne' (hr.scale _ hm e he g hg) (hr.extent _ hm e he p hp)
  refine ⟨h3.2.2, ?_⟩
  rw [← Kernel.imCov_toMatrix b, ← (Kernel.C49_matrix _ ⟨0, 0, 0, 0⟩ 0 0 0).2.2.2.2.2.1]
  exact h3.2.2

lemma lnp_eq {u : Setup N} {P : Mixture} {nr : Nat} (hu : Good u P nr) (hr : Regular u) (z : Fin N → ℝ) :
    Transform.lnp (pieces u P) u.transform u.sampling z = logPosterior u P z := by
  have hc : ((pieces u P).chi2 (u.transform.transform z)) = (List.range u.patch.length).map fun b =>
      (((u.patch[b]?).getD []).map fun e => (e.pixels.map fun px =>
        px.ierr ^ 2 * (px.data - Kernel.specModel b u.nSources e
          (srcOf P u.patch.length (ext (physical u.transform.lower u.transform.upper z))) px.x px.y) ^ 2 -
        px.ierr ^ 2 * px.data ^ 2).sum).sum := by
    simp only [pieces]
    apply List.map_congr_left
    intro b hb
    have hb' := List.mem_range.1 hb
    unfold ker
    rw [(Kernel.C50_chi2 b u.nSources _ _ fun e he g hg p hp => (cov_pos hu hr z b hb' g hg e he p hp).2).1,
      ← physical_eq]
  unfold Transform.lnp logPosterior
  simp only [hc]
  rw [volume_eq u.transform hr.bounds z, physical_eq]
  simp only [pieces]
  cases u.sampling <;> norm_num

/-- **C136 (answers).** For every vector and every scene of free galaxies with the bands of the patch, an evaluation ends
without error, whatever the buffers of the proposals hold. -/
theorem C136_answers (u : Setup N) (P : Mixture) (nr : Nat) (hu : Good u P nr)
    (mem : Sources.Source ℝ → Sources.Proposal ℝ) (hm : ∀ s, (mem s).Sized) (sc : Sources.Scene ℝ)
    (hs : SceneOk u.patch.length u.nSources sc) (z : Fin N → ℝ) : ∃ sc' L G, Evaluated u mem sc z sc' L G := by
  obtain ⟨sc', e1, e2, e3⟩ := scene_set hu.pos hu.dim sc hs (u.transform.transform z)
  obtain ⟨ps, p1, p2, p3⟩ := proposal_same hu mem hm sc' e2 _ e3
  choose run hrun using fun b : Nat => launch_exists u.dev b u.nSources ((u.patch[b]?).getD []) (entry ps)
  choose buf hbuf using fun b : Nat => (Kernel.C53_rows u.nSources hu.sources (run b).grad)
  have hret : Returned u ps (((List.range u.patch.length).map run).map (·.chi2))
      ((List.range u.patch.length).map fun b => Kernel.responseRows u.nSources (buf b)) := by
    refine ⟨p2.ge, (List.range u.patch.length).map run, by simp, ?_, rfl, ?_⟩
    · intro b es acc h1 h2
      have hb := (List.getElem?_eq_some_iff.1 h1).1
      rw [List.getElem?_map, List.getElem?_range hb, Option.map_some] at h2
      obtain rfl := Option.some.inj h2
      have := hrun b
      rw [h1] at this
      exact this
    · rw [List.forall₂_map_left_iff, List.forall₂_map_right_iff]
      exact List.forall₂_same.2 fun b _ => ⟨buf b, (hbuf b).1, rfl⟩
  refine ⟨sc', _, _, e1, ps, _, _, p1, hret, ?_, rfl, rfl⟩
  rw [(Posterior.Stack.C28_layout u.nSources u.patch.length _ (by simp)).1]
  exact hu.dim.symm

/-- **C136 (value).** Every answer is the log posterior of the data at the point meant by the vector, and the scene is
left with the parameters of that point. -/
theorem C136_value (u : Setup N) (P : Mixture) (nr : Nat) (hu : Good u P nr) (hr : Regular u)
    (mem : Sources.Source ℝ → Sources.Proposal ℝ) (hm : ∀ s, (mem s).Sized) (sc : Sources.Scene ℝ)
    (hs : SceneOk u.patch.length u.nSources sc) (z : Fin N → ℝ) (sc' : Sources.Scene ℝ) (L : ℝ) (G : Fin N → ℝ)
    (h : Evaluated u mem sc z sc' L G) :
    L = logPosterior u P z ∧ SceneOk u.patch.length u.nSources sc' ∧
    ∀ (g : Nat) (s : Sources.Source ℝ), sc'[g]? = some s → ∀ j < u.patch.length + 6,
      (s.flux ++ [s.attr .ra, s.attr .dec, s.attr .q, s.attr .pa, s.attr .sersic, s.attr .rhalf])[j]? =
        some (ext (physical u.transform.lower u.transform.upper z) (g * (u.patch.length + 6) + j)) := by
  obtain ⟨h1, h2, h3, -⟩ := evaluated_facts hu hm hs h
  refine ⟨h3.trans (lnp_eq hu hr z), h1, ?_⟩
  intro g s hg j hj
  obtain ⟨k0, k1, k2, k3, k4, k5, k6⟩ := h2 g s hg
  have hfl : s.flux.length = u.patch.length := by
    obtain ⟨w, -, w', -⟩ := h1.2 s (List.mem_of_getElem? hg)
    unfold Sources.Source.WF at w
    unfold Sources.Source.nBands at w'
    omega
  rw [← physical_eq]
  by_cases hjb : j < u.patch.length
  · rw [List.getElem?_append_left (by omega), k0 j hjb]
  · rw [List.getElem?_append_right (by omega), hfl]
    obtain ⟨k, rfl⟩ : ∃ k, j = u.patch.length + k := ⟨j - u.patch.length, by omega⟩
    rw [Nat.add_sub_cancel_left]
    have hk : k < 6 := by omega
    interval_cases k <;> simp [k1, k2, k3, k4, k5, k6]

/-- **C136 (gradient).** The answered gradient has the partial derivatives of the log posterior by the entries of the
sampler's vector, at every point at which no pixel lies on a cut-off ellipse and mixture and prior are differentiable. -/
theorem C136_gradient (u : Setup N) (P : Mixture) (nr : Nat) (hu : Good u P nr) (hr : Regular u)
    (mem : Sources.Source ℝ → Sources.Proposal ℝ) (hm : ∀ s, (mem s).Sized) (sc : Sources.Scene ℝ)
    (hs : SceneOk u.patch.length u.nSources sc) (z : Fin N → ℝ)
    (hz : Smooth u P nr (physical u.transform.lower u.transform.upper z)) (sc' : Sources.Scene ℝ) (L : ℝ)
    (G : Fin N → ℝ) (h : Evaluated u mem sc z sc' L G) (i : Fin N) :
    HasDerivAt (fun x => logPosterior u P (Function.update z i x)) (G i) (z i) := by
  obtain ⟨-, -, -, hG⟩ := evaluated_facts hu hm hs h
  rw [← physical_eq] at hz
  have hoff : ∀ b < u.patch.length, ∀ g < u.nSources, Kernel.OffThreshold b ((u.patch[b]?).getD []) g
      (srcOf P u.patch.length (ext (u.transform.transform z)) g) := by
    intro b hb g hg
    rw [List.getElem?_eq_getElem hb]
    exact hz.off b _ (List.getElem?_eq_getElem hb) g hg
  have hst := Transform.C31_stacked u.nSources u.patch.length (fun b q => (ker u P q b).chi2)
    (fun b s j => (ker u P (ext (u.transform.transform z)) b).grad s (col j)) (ext (u.transform.transform z))
    (fun s b hs hb => ker_flux hu hs hb (hoff b hb s hs))
    (fun s b b' _ hb hb' hne => ker_other hu hb hb' hne)
    (fun s b k hs hb hk => ker_shape hu hs hb (hoff b hb s hs) (ratio_pos hu hr z s hs).ne'
      (fun e he p hp => (cov_pos hu hr z b hb s hs e he p hp).1) (hz.dN s hs) (hz.dRh s hs) k hk)
    i.val (hu.dim ▸ i.isLt)
  obtain ⟨v, hv, hd⟩ := hst
  have hE : ext (u.transform.transform z) i.val = u.transform.transform z i := by
    rw [ext, dif_pos i.isLt]
  have hchi : HasDerivAt (fun x => ((pieces u P).chi2 (Function.update (u.transform.transform z) i x)).sum)
      ((pieces u P).dchi2 (u.transform.transform z) i) (u.transform.transform z i) := by
    rw [← hE]
    refine Transform.hdc hd (fun x => ?_) ?_
    · simp only [pieces, ext_update]
      exact Transform.sum_map_range _ _
    · simp only [pieces]
      rw [List.getD_eq_getElem?_getD, hv]
      rfl
  have key := Transform.C31_gradient (pieces u P) u.transform (fun i => (hr.bounds i).ne) u.sampling z i hchi (hz.prior i)
  rw [hG]
  exact Transform.hdc key (fun x => (lnp_eq hu hr _).symm) rfl

/-- **C136 (history).** Two evaluations at the same point give the same answer: it depends neither on what the scene held
before, nor on the contents of the buffers, nor on the order in which the threads of a GPU run, nor on whether the CPU
or a GPU computes. -/
theorem C136_history (u : Setup N) (P : Mixture) (nr : Nat) (hu : Good u P nr) (dev : Device)
    (hd : Good { u with dev := dev } P nr) (mem mem' : Sources.Source ℝ → Sources.Proposal ℝ)
    (hm : ∀ s, (mem s).Sized) (hm' : ∀ s, (mem' s).Sized) (sc₁ sc₂ : Sources.Scene ℝ)
    (h₁ : SceneOk u.patch.length u.nSources sc₁) (h₂ : SceneOk u.patch.length u.nSources sc₂) (z : Fin N → ℝ)
    (sc₁' sc₂' : Sources.Scene ℝ) (L₁ L₂ : ℝ) (G₁ G₂ : Fin N → ℝ) (e₁ : Evaluated u mem sc₁ z sc₁' L₁ G₁)
    (e₂ : Evaluated { u with dev := dev } mem' sc₂ z sc₂' L₂ G₂) : L₁ = L₂ ∧ G₁ = G₂ := by
  obtain ⟨-, -, a3, a4⟩ := evaluated_facts hu hm h₁ e₁
  obtain ⟨-, -, b3, b4⟩ := evaluated_facts hd hm' h₂ e₂
  rw [a3, b3, a4, b4]
  exact ⟨rfl, rfl⟩

/-- A sampler calling `evaluate` again and again on the same object (model.py:302-352): the scene is handed on, the
proposal buffers hold anything. -/
inductive Run (u : Setup N) : Sources.Scene ℝ → List ((Fin N → ℝ) × ℝ × (Fin N → ℝ)) → Prop
  | nil (sc : Sources.Scene ℝ) : Run u sc []
  | cons {sc sc' : Sources.Scene ℝ} {z : Fin N → ℝ} {L : ℝ} {G : Fin N → ℝ}
      {rest : List ((Fin N → ℝ) × ℝ × (Fin N → ℝ))} (mem : Sources.Source ℝ → Sources.Proposal ℝ)
      (hm : ∀ s, (mem s).Sized) : Evaluated u mem sc z sc' L G → Run u sc' rest → Run u sc ((z, L, G) :: rest)

/-- **C136 (chain).** However often and at whatever points a sampler evaluates, each answer is the log posterior at its
own point, with its gradient there; and a sampler can always go on. -/
theorem C136_chain (u : Setup N) (P : Mixture) (nr : Nat) (hu : Good u P nr) (hr : Regular u) (sc : Sources.Scene ℝ)
    (hs : SceneOk u.patch.length u.nSources sc) :
    (∀ calls, Run u sc calls → ∀ z L G, (z, L, G) ∈ calls → L = logPosterior u P z ∧
      (Smooth u P nr (physical u.transform.lower u.transform.upper z) →
        ∀ i, HasDerivAt (fun x => logPosterior u P (Function.update z i x)) (G i) (z i))) ∧
    ∀ zs : List (Fin N → ℝ), ∃ calls, Run u sc calls ∧ calls.map (·.1) = zs := by
  constructor
  · intro calls hrun
    induction hrun with
    | nil sc => intro z L G h; simp at h
    | @cons sc sc' z L G rest mem hm he _ ih =>
      intro z' L' G' h
      rcases List.mem_cons.1 h with h | h
      · obtain ⟨rfl, rfl, rfl⟩ : z' = z ∧ L' = L ∧ G' = G := by simpa using h
        exact ⟨(C136_value u P nr hu hr mem hm sc hs _ _ _ _ he).1,
          fun hz i => C136_gradient u P nr hu hr mem hm sc hs _ hz _ _ _ he i⟩
      · exact ih (C136_value u P nr hu hr mem hm sc hs _ _ _ _ he).2.1 z' L' G' h
  · intro zs
    induction zs generalizing sc with
    | nil => exact ⟨[], .nil sc, rfl⟩
    | cons z zs ih =>
      let mem : Sources.Source ℝ → Sources.Proposal ℝ := fun _ =>
        ⟨0, 0, 0, 0, 0, 0, List.replicate 30 0, List.replicate 10 0, List.replicate 10 0, List.replicate 10 0⟩
      have hm : ∀ s, (mem s).Sized := fun _ => ⟨List.length_replicate, List.length_replicate, List.length_replicate,
        List.length_replicate⟩
      obtain ⟨sc', L, G, he⟩ := C136_answers u P nr hu mem hm sc hs z
      obtain ⟨calls, h1, h2⟩ := ih sc' (C136_value u P nr hu hr mem hm sc hs _ _ _ _ he).2.1
      exact ⟨(z, L, G) :: calls, .cons mem hm he h1, by rw [List.map_cons, h2]⟩

/-! ### A concrete fit: one source, one band, one exposure of 32 pixels -/

section witness

/-- A mixture of one gaussian. -/
noncomputable def exP : Mixture := ⟨fun a r => [1 + a * r], fun _ r => [r], fun a _ => [a]⟩

/-- One exposure. -/
noncomputable def exX : Kernel.Exposure := { Kernel.exE with pixels := List.replicate 32 ⟨0, 0, 5, 1⟩ }

/-- Right ascension and declination between minus one and one, all else between zero and one. -/
noncomputable def exU (dev : Device) : Setup 7 where
  patch := [[exX]]
  nSources := 1
  dev := dev
  splines := ⟨fun s => exP.amps (s.attr .sersic) (s.attr .rhalf), fun s => exP.dRh (s.attr .sersic) (s.attr .rhalf),
    fun s => exP.dN (s.attr .sersic) (s.attr .rhalf)⟩
  transform := ⟨fun i => if i = 1 ∨ i = 2 then -1 else 0, fun _ => 1⟩
  lnprior := fun q => q 3
  lnpriorGrad := fun _ i => if i = 3 then 1 else 0
  sampling := true

/-- One galaxy in one band. -/
noncomputable def exSc : Sources.Scene ℝ :=
  [{ cls := .galaxy true, filternames := ["F200W"], flux := [3], attr := fun _ => 2, id := 0, fixed := false }]

/-- Buffers that were never cleared. -/
noncomputable def exMem : Sources.Source ℝ → Sources.Proposal ℝ := fun _ =>
  ⟨9, 9, 9, 9, 9, 9, List.replicate 30 9, List.replicate 10 9, List.replicate 10 9, List.replicate 10 9⟩

lemma exU_good (dev : Device) (hd : dev = .cpu ∨ dev = .gpu 1024) : Good (exU dev) exP 1 where
  pos := by simp [exU]
  sources := by simp [exU]
  bands := by simp [exU]
  dim := by simp [exU]
  radii := by norm_num
  amps := fun _ => rfl
  dN := fun _ => rfl
  dRh := fun _ => rfl
  lens := fun _ _ => ⟨rfl, rfl, rfl⟩
  bins := by simp [exU, exX, Kernel.exE]
  device := by
    intro B hB
    rcases hd with rfl | rfl
    · simp [exU] at hB
    · obtain rfl : B = 1024 := by simpa [exU] using hB.symm
      refine ⟨by norm_num, by norm_num, ?_⟩
      simp [exU, exX]

lemma exU_regular (dev : Device) : Regular (exU dev) where
  bounds := by
    intro i
    simp only [exU]
    split_ifs <;> norm_num
  ratio := by
    intro g hg
    have : g = 0 := by simp [exU] at hg; exact hg
    subst this
    simp [exU, ext]
  scale := by
    intro es hes e he g _
    have h1 : es = [exX] := by simpa [exU] using hes
    subst h1
    have h2 : e = exX := by simpa using he
    subst h2
    have := Kernel.exE_det
    simpa [exX, Kernel.exE] using this
  extent := by
    intro es hes e he p hp
    have h1 : es = [exX] := by simpa [exU] using hes
    subst h1
    have h2 : e = exX := by simpa using he
    subst h2
    have h3 : p = ⟨1, 0, 0, 1, 1, 0, 0⟩ := by simpa [exX, Kernel.exE] using hp
    subst h3
    exact Or.inl ⟨by simp [exX, Kernel.exE], Kernel.exE_psf⟩

lemma exU_scene (dev : Device) : SceneOk (exU dev).patch.length (exU dev).nSources exSc := by
  refine ⟨rfl, ?_⟩
  intro s hs
  have : s = _ := List.mem_singleton.1 hs
  subst this
  exact ⟨rfl, rfl, rfl, rfl⟩

lemma exU_smooth (dev : Device) :
    Smooth (exU dev) exP 1 (physical (exU dev).transform.lower (exU dev).transform.upper fun _ => 0) where
  off := by
    intro b es hb g hg e he p hp px hpx
    have h0 : g = 0 := by simp [exU] at hg; exact hg
    subst h0
    have hb0 : b = 0 ∧ es = [exX] := by
      rcases b with _ | b
      · exact ⟨rfl, by simpa [exU] using hb.symm⟩
      · simp [exU] at hb
    obtain ⟨rfl, rfl⟩ := hb0
    have h2 : e = exX := by simpa using he
    subst h2
    have h3 : p = ⟨1, 0, 0, 1, 1, 0, 0⟩ := by simpa [exX, Kernel.exE] using hp
    subst h3
    have h4 : px = ⟨0, 0, 5, 1⟩ := by
      have : px ∈ List.replicate 32 (⟨0, 0, 5, 1⟩ : Kernel.Pixel) := hpx
      exact List.eq_of_mem_replicate this
    subst h4
    have hx : (Kernel.imGauss 0 exX 0 (srcOf exP (exU dev).patch.length
          (ext (physical (exU dev).transform.lower (exU dev).transform.upper fun _ => 0)) 0)
          ⟨1, 0, 0, 1, 1, 0, 0⟩).xcen = 0 ∧
        (Kernel.imGauss 0 exX 0 (srcOf exP (exU dev).patch.length
          (ext (physical (exU dev).transform.lower (exU dev).transform.upper fun _ => 0)) 0)
          ⟨1, 0, 0, 1, 1, 0, 0⟩).ycen = 0 := by
      constructor <;>
        (simp [Kernel.imGauss, Kernel.getGaussianAndJacobian, Kernel.pixGauss, exX, Kernel.exE, srcOf, ext, physical,
          exU, Kernel.M22.mulVec]; try norm_num)
    unfold Kernel.expArg
    rw [hx.1, hx.2]
    simp [Kernel.maxExpArg]
  dN := by
    intro g _ k hk a r _ _
    obtain rfl : k = 0 := by omega
    exact Transform.hdc (((hasDerivAt_id a).mul_const r).const_add 1) (fun t => by simp [exP]) (by simp [exP])
  dRh := by
    intro g _ k hk a r _ _
    obtain rfl : k = 0 := by omega
    exact Transform.hdc (((hasDerivAt_id r).const_mul a).const_add 1) (fun t => by simp [exP]) (by simp [exP])
  prior := by
    intro i
    by_cases hi : i = 3
    · subst hi
      exact Transform.hdc (hasDerivAt_id _) (fun x => by simp [exU]) (by simp [exU])
    · exact Transform.hdc (hasDerivAt_const _ ((physical (exU dev).transform.lower (exU dev).transform.upper
        fun _ => 0) 3)) (fun x => by simp [exU, Function.update_of_ne (Ne.symm hi)]) (by simp [exU, hi])

/-- **C136 (a case).** The CPU and a GPU with the default of 1024 threads answer alike on a fit that meets all
conditions, and the answer is the log posterior with its gradient. -/
theorem C136_witness : ∃ sc₁ sc₂ L G, Evaluated (exU .cpu) exMem exSc (fun _ => 0) sc₁ L G ∧
    Evaluated (exU (.gpu 1024)) exMem exSc (fun _ => 0) sc₂ L G ∧ L = logPosterior (exU .cpu) exP (fun _ => 0) ∧
    ∀ i, HasDerivAt (fun x => logPosterior (exU .cpu) exP (Function.update (fun _ => 0) i x)) (G i) 0 := by
  have hm : ∀ s, (exMem s).Sized := fun _ => ⟨by simp [exMem, Sources.maxBands], by simp [exMem, Sources.maxRadii],
    by simp [exMem, Sources.maxRadii], by simp [exMem, Sources.maxRadii]⟩
  have g1 := exU_good .cpu (Or.inl rfl)
  have g2 := exU_good (.gpu 1024) (Or.inr rfl)
  obtain ⟨sc₁, L, G, h1⟩ := C136_answers _ _ _ g1 exMem hm exSc (exU_scene _) fun _ => 0
  obtain ⟨sc₂, L', G', h2⟩ := C136_answers _ _ _ g2 exMem hm exSc (exU_scene _) fun _ => 0
  obtain ⟨rfl, rfl⟩ := C136_history (exU .cpu) exP 1 g1 (.gpu 1024) g2 exMem exMem hm hm exSc exSc (exU_scene _)
    (exU_scene (.gpu 1024)) (fun _ => 0) sc₁ sc₂ L L' G G' h1 h2
  exact ⟨sc₁, sc₂, L, G, h1, h2,
    (C136_value _ _ _ g1 (exU_regular _) exMem hm exSc (exU_scene _) _ _ _ _ h1).1,
    fun i => C136_gradient _ _ _ g1 (exU_regular _) exMem hm exSc (exU_scene _) _ (exU_smooth _) _ _ _ h1 i⟩

end witness

end Forcepho.Fit
