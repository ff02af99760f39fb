import Verif.Slow.MultiProps

/-! # C80 for the pure-Python work plans

`C80_gradient_partial` asks of every plan that its own gradient is right (`PlanOk`).  Here this is proved of
`FastWorkPlan` and, without fixed sources, of `WorkPlan`, as modelled in `Verif.Slow.Model`. -/

set_option autoImplicit false

namespace Forcepho.Multi

open Forcepho.Kernel (Param M22)
open Forcepho.Slow (Stamp Opts Comp Full gigD gigD_eq psfMeans fastLnlike plainLnlike Regular Moves)
open Forcepho.Sources (Source Scene Cls Attr setAll)

/-- One gaussian of the profile of a source class: its covariance, its amplitude as a function of Sersic
index and half-light radius, and the derivatives `damplitude_dsersic`, `damplitude_drh`
(sources.py:301-329, 656-694). -/
structure Prof where
  cov : M22
  A : ℝ → ℝ → ℝ
  dN : ℝ → ℝ → ℝ
  dR : ℝ → ℝ → ℝ

/-- The derivatives of the amplitudes are right. -/
def Prof.Right (c : Prof) : Prop :=
  ∀ n r, HasDerivAt (fun t => c.A t r) (c.dN n r) n ∧ HasDerivAt (fun t => c.A n t) (c.dR n r) r

/-- What `convert_to_gaussians` reads of a source (gaussmodel.py:94-120). -/
noncomputable def toSlow (prof : Cls → List Prof) (flt : String) (s : Source ℝ) : Slow.Source where
  ra := s.attr .ra
  dec := s.attr .dec
  q := s.attr .q
  pa := s.attr .pa
  flux := s.flux[s.filternames.idxOf flt]?.getD 0
  comps := (prof s.cls).map fun c => ⟨c.cov, c.A (s.attr .sersic) (s.attr .rhalf),
    c.dN (s.attr .sersic) (s.attr .rhalf), c.dR (s.attr .sersic) (s.attr .rhalf)⟩

/-- A `FastWorkPlan` (`fast`) or `WorkPlan` for a stamp. -/
noncomputable def slowPlan (fast : Bool) (prof : Cls → List Prof) (o : Opts) (st : Stamp) (flt : String)
    (cov : Source ℝ → Int) : Plan ℝ where
  filtername := flt
  coverage := cov
  lnlike := fun a f =>
    let r := (if fast then fastLnlike else plainLnlike) o st.pixels
      (a.map fun s => gigD (toSlow prof flt s) st) (f.map fun s => gigD (toSlow prof flt s) st)
    (r.lnlike, r.grads)

lemma fast_congr (o : Opts) (px : List Kernel.Pixel) (a a' f : List (List Full))
    (h : a.map (List.map (·.g)) = a'.map (List.map (·.g))) :
    (fastLnlike o px a f).lnlike = (fastLnlike o px a' f).lnlike := by
  have hs : ∀ p (gs : List Full), Slow.sourceCounts o p gs =
      ((gs.map (·.g)).map fun g => Slow.counts o g p.x p.y).sum := by
    intro p gs
    simp only [Slow.sourceCounts, List.map_map]
    rfl
  have hm : ∀ p, Slow.modelCounts o p (a ++ f) = Slow.modelCounts o p (a' ++ f) := by
    intro p
    have e : ∀ l : List (List Full), l.map (Slow.sourceCounts o p) =
        (l.map (List.map (·.g))).map fun gs => (gs.map fun g => Slow.counts o g p.x p.y).sum := by
      intro l
      rw [List.map_map]
      apply List.map_congr_left
      intro gs _
      exact hs p gs
    simp only [Slow.modelCounts, List.map_append, List.sum_append, e, h]
  simp only [fastLnlike, Slow.fastResidual_eq, hm]

lemma gig_g (st : Stamp) (ms : List (ℝ × ℝ)) (hms : psfMeans st = some ms) (s s' : Slow.Source)
    (h1 : s.ra = s'.ra) (h2 : s.dec = s'.dec) (h3 : s.q = s'.q) (h4 : s.pa = s'.pa) (h5 : s.flux = s'.flux)
    (h6 : s.comps.map (fun c => (c.cov, c.amp)) = s'.comps.map (fun c => (c.cov, c.amp))) :
    (gigD s st).map (·.g) = (gigD s' st).map (·.g) := by
  rw [gigD_eq s st ms hms, gigD_eq s' st ms hms]
  have e : ∀ x : Slow.Source, x.ra = s.ra → x.dec = s.dec → x.q = s.q → x.pa = s.pa → x.flux = s.flux →
      ((x.comps.map fun c => (st.psf.zip ms).map fun pm =>
      (⟨Slow.toGaussian x st c pm.1 pm.2, Slow.derivs x st c pm.1, Slow.DerivsOk x st c pm.1⟩ : Full)).flatten).map
        (·.g) = ((x.comps.map (fun c => (c.cov, c.amp))).map fun ca => (st.psf.zip ms).map fun pm =>
          Slow.toGaussian s st ⟨ca.1, ca.2, 0, 0⟩ pm.1 pm.2).flatten := by
    intro x g1 g2 g3 g4 g5
    rw [List.map_flatten, List.map_map, List.map_map]
    congr 1
    apply List.map_congr_left
    intro c _
    simp only [Function.comp_apply, List.map_map]
    apply List.map_congr_left
    intro pm _
    simp only [Function.comp_apply, Slow.toGaussian, Slow.sigma, Slow.tMatrix, g1, g2, g3, g4, g5]
  rw [e s rfl rfl rfl rfl rfl, e s' h1.symm h2.symm h3.symm h4.symm h5.symm, h6]

/-- The plans of `slow/likelihood.py` meet what `C80_gradient_partial` asks: for both kinds when no source
of the stamp is fixed, for `FastWorkPlan` always. -/
theorem C80_plans (fast : Bool) (prof : Cls → List Prof) (hprof : ∀ c, ∀ p ∈ prof c, p.Right) (o : Opts)
    (st : Stamp) (ms : List (ℝ × ℝ)) (hms : psfMeans st = some ms) (flt : String) (n : Int)
    (act fix : List (Source ℝ)) (hreg : ∀ s ∈ act, Regular (toSlow prof flt s) st)
    (hfix : fast = true ∨ fix = []) :
    PlanOk (slowPlan fast prof o st flt fun _ => n) act fix := by
  have hplan : ∀ a, (slowPlan fast prof o st flt fun _ => n).lnlike a fix =
      (slowPlan true prof o st flt fun _ => n).lnlike a fix := by
    intro a
    rcases hfix with h | h
    · rw [h]
    · cases fast
      · rw [h]
        simp only [slowPlan, Bool.false_eq_true, if_false, if_true, List.map_nil,
          Slow.C64_agree_partial]
      · rfl
  refine ⟨?_, ?_, ?_, fun _ _ _ => rfl⟩
  · intro a f
    cases fast <;> simp [slowPlan, fastLnlike, plainLnlike]
  · intro i s g hi hg prm t₀ ht
    rw [hplan] at hg
    simp only [hplan]
    simp only [slowPlan, if_true] at hg ⊢
    have hr := hreg s (List.mem_of_getElem? hi)
    have hmapset : ∀ x : Source ℝ, ((act.set i x).map fun s => gigD (toSlow prof flt s) st) =
        (((act.map (toSlow prof flt)).set i (toSlow prof flt x)).map fun a => gigD a st) := by
      intro x
      rw [List.map_set, List.map_set, List.map_map]
      rfl
    have hmap : (act.map fun s => gigD (toSlow prof flt s) st) =
        ((act.map (toSlow prof flt)).map fun a => gigD a st) := by
      rw [List.map_map]; rfl
    have hfixm : (fix.map fun s => gigD (toSlow prof flt s) st) =
        ((fix.map (toSlow prof flt)).map fun a => gigD a st) := by
      rw [List.map_map]; rfl
    -- the curve of sources
    obtain ⟨u, hu, hgu⟩ : ∃ u : ℝ → Slow.Source, Moves (toSlow prof flt s) prm u t₀ ∧
        ∀ t, (gigD (toSlow prof flt (move s flt prm t)) st).map (·.g) = (gigD (u t) st).map (·.g) := by
      cases prm with
      | flux =>
        simp only [IsValue] at ht
        have hlt : s.filternames.idxOf flt < s.flux.length := (List.getElem?_eq_some_iff.mp ht).1
        refine ⟨fun t => { toSlow prof flt s with flux := t }, ⟨?_, fun _ => rfl⟩, fun t => ?_⟩
        · simp only [toSlow]
          simp only [slowPlan] at ht
          rw [ht]
          rfl
        · have : toSlow prof flt (move s flt .flux t) = { toSlow prof flt s with flux := t } := by
            simp only [toSlow, move, Slow.Source.mk.injEq, true_and, and_true]
            rw [List.getElem?_set_self hlt]
            rfl
          rw [this]
      | ra => exact ⟨fun t => { toSlow prof flt s with ra := t }, ⟨ht.symm, fun _ => rfl⟩, fun t => rfl⟩
      | dec => exact ⟨fun t => { toSlow prof flt s with dec := t }, ⟨ht.symm, fun _ => rfl⟩, fun t => rfl⟩
      | q => exact ⟨fun t => { toSlow prof flt s with q := t }, ⟨ht.symm, fun _ => rfl⟩, fun t => rfl⟩
      | pa => exact ⟨fun t => { toSlow prof flt s with pa := t }, ⟨ht.symm, fun _ => rfl⟩, fun t => rfl⟩
      | sersic =>
        simp only [IsValue] at ht
        refine ⟨fun t => (toSlow prof flt s).withAmps fun k =>
          (((prof s.cls)[k]?).map fun c => c.A t (s.attr .rhalf)).getD 0, ?_, fun t => ?_⟩
        · refine ⟨fun k t => (((prof s.cls)[k]?).map fun c => c.A t (s.attr .rhalf)).getD 0,
            fun t => rfl, ?_⟩
          intro k c hc
          simp only [toSlow, List.getElem?_map] at hc
          obtain ⟨c0, hc0, rfl⟩ := Option.map_eq_some_iff.mp hc
          simp only [hc0, Option.map_some, Option.getD_some]
          subst ht
          exact ⟨rfl, (hprof _ c0 (List.mem_of_getElem? hc0) _ _).1⟩
        · apply gig_g st ms hms <;> try rfl
          simp only [toSlow, move, Slow.Source.withAmps, List.map_map]
          apply List.ext_getElem?
          intro k
          simp only [List.getElem?_map, List.getElem?_mapIdx]
          cases (prof s.cls)[k]? with
          | none => rfl
          | some c => simp
      | rh =>
        simp only [IsValue] at ht
        refine ⟨fun t => (toSlow prof flt s).withAmps fun k =>
          (((prof s.cls)[k]?).map fun c => c.A (s.attr .sersic) t).getD 0, ?_, fun t => ?_⟩
        · refine ⟨fun k t => (((prof s.cls)[k]?).map fun c => c.A (s.attr .sersic) t).getD 0,
            fun t => rfl, ?_⟩
          intro k c hc
          simp only [toSlow, List.getElem?_map] at hc
          obtain ⟨c0, hc0, rfl⟩ := Option.map_eq_some_iff.mp hc
          simp only [hc0, Option.map_some, Option.getD_some]
          subst ht
          exact ⟨rfl, (hprof _ c0 (List.mem_of_getElem? hc0) _ _).2⟩
        · apply gig_g st ms hms <;> try rfl
          simp only [toSlow, move, Slow.Source.withAmps, List.map_map]
          apply List.ext_getElem?
          intro k
          simp only [List.getElem?_map, List.getElem?_mapIdx]
          cases (prof s.cls)[k]? with
          | none => rfl
          | some c => simp
    rw [hmap, hfixm] at hg
    have := (Slow.C64_gradient o st ms hms (act.map (toSlow prof flt)) (fix.map (toSlow prof flt)) i
      (toSlow prof flt s) (by rw [List.getElem?_map, hi]; rfl) hr prm u t₀ hu).1 g hg
    refine Transform.hdc this (fun t => ?_) rfl
    rw [hmapset, hfixm]
    apply fast_congr
    rw [List.map_set, List.map_set, List.map_set, List.map_set, hgu t]
  · intro i s m f t hi hf hne
    rw [hplan, hplan]
    simp only [slowPlan, if_true] at hne ⊢
    congr 2
    have : toSlow prof flt { s with flux := s.flux.set m t } = toSlow prof flt s := by
      have hmi : m ≠ s.filternames.idxOf flt := by
        intro h
        apply hne
        have hlt : m < s.filternames.length := (List.getElem?_eq_some_iff.mp hf).1
        rw [h] at hf hlt
        rw [List.getElem?_eq_getElem hlt, List.getElem_idxOf] at hf
        exact (Option.some.inj hf).symm
      simp only [toSlow, Slow.Source.mk.injEq, true_and, and_true]
      rw [List.getElem?_set_ne hmi]
    rw [List.map_set, this, ← List.map_set]
    congr 1
    apply List.ext_getElem?
    intro k
    rw [List.getElem?_set]
    by_cases hk : i = k
    · subst hk
      rw [if_pos rfl, hi]
      simp [(List.getElem?_eq_some_iff.mp hi).1]
    · rw [if_neg hk]

/-- A stamp and the plan made for it; the stamp's `coverage` is the one of `PostageStamp` (stamp.py:96-101),
which makes every source active. -/
structure Spec where
  fast : Bool
  o : Opts
  st : Stamp
  flt : String

/-- The plan. -/
noncomputable def Spec.plan (prof : Cls → List Prof) (p : Spec) : Plan ℝ :=
  slowPlan p.fast prof p.o p.st p.flt fun _ => 2

/-- The gradient that `lnlike_multi` returns for a list of stamps is the derivative of the log-likelihood
that it returns, entry by entry, wherever it is a number.
Missing: source classes with other parameters, fixed sources (both refuted). -/
theorem C80_slow_partial (prof : Cls → List Prof) (hprof : ∀ c, ∀ p ∈ prof c, p.Right) (sc : Scene ℝ)
    (specs : List Spec) (hg : GoodScene sc (specs.map (Spec.plan prof)))
    (hms : ∀ p ∈ specs, psfMeans p.st ≠ none) :
    ∃ L : List ℝ → ℝ, ∀ th : List ℝ, th.length = (sc.map (·.nParams)).sum → ∃ sc' G,
      setAll sc th = (sc', none) ∧
      lnlikeMulti th sc (specs.map (Spec.plan prof)) = .ok (L th, G) ∧ G.length = th.length ∧
      ((∀ p ∈ specs, ∀ s ∈ sc', Regular (toSlow prof p.flt s) p.st) →
       ∀ (k : Nat) (x d : ℝ), th[k]? = some x → G[k]? = some (some d) →
         HasDerivAt (fun t => L (th.set k t)) d x) := by
  obtain ⟨L, hL⟩ := C80_gradient_partial sc (specs.map (Spec.plan prof)) hg (by
    intro pl hpl a f
    obtain ⟨p, _, rfl⟩ := List.mem_map.mp hpl
    unfold Spec.plan
    cases p.fast <;> simp [slowPlan, fastLnlike, plainLnlike])
  refine ⟨L, fun th hth => ?_⟩
  obtain ⟨sc', G, h1, h2, h3, -, h5⟩ := hL th hth
  refine ⟨sc', G, h1, h2, h3, fun hreg => h5 ?_ ?_⟩
  · intro pl hpl
    obtain ⟨p, hp, rfl⟩ := List.mem_map.mp hpl
    obtain ⟨ms, hm⟩ := Option.ne_none_iff_exists'.mp (hms p hp)
    have e : (sc'.filter fun s => decide ((Spec.plan prof p).coverage s = 1)) = [] := by
      simp [Spec.plan, slowPlan]
    rw [e]
    exact C80_plans p.fast prof hprof p.o p.st ms hm p.flt 2 _ [] (fun s hs =>
      hreg p hp s (List.mem_of_mem_filter hs)) (Or.inr rfl)
  · intro pl hpl s _
    obtain ⟨p, _, rfl⟩ := List.mem_map.mp hpl
    simp [Spec.plan, slowPlan]

/-- One gaussian whose amplitude grows with both profile parameters. -/
def prof1 : Cls → List Prof := fun _ => [⟨⟨1, 0, 0, 1⟩, fun n r => 1 + n + r, fun _ _ => 1, fun _ _ => 1⟩]

/-- A round galaxy at the origin. -/
def gal1 : Source ℝ := ⟨.galaxy true, ["A", "F"], [5, 3], fun a => if a = .q then 1 else 0, 0, false⟩

/-- The hypotheses of `C80_slow_partial` can be met: two kinds of plan for one stamp, and a vector with a
round galaxy. -/
theorem C80_witness : (∀ c, ∀ p ∈ prof1 c, p.Right) ∧
    GoodScene [gal1] ([⟨true, {}, Slow.stamp1, "F"⟩, ⟨false, {}, Slow.stamp1, "F"⟩].map (Spec.plan prof1)) ∧
    psfMeans Slow.stamp1 ≠ none ∧
    setAll [gal1] [5, 3, 0, 0, 1, 0, 0, 0] = ([gal1], none) ∧
    toSlow prof1 "F" gal1 = Slow.source1 ∧ Regular (toSlow prof1 "F" gal1) Slow.stamp1 := by
  have h1 : toSlow prof1 "F" gal1 = Slow.source1 := by
    simp [toSlow, gal1, prof1, Slow.source1, List.idxOf_cons]
  obtain ⟨w1, w2, -, -⟩ := Slow.C64_witness
  refine ⟨?_, ⟨?_, ?_, ?_, ?_, ?_⟩, by rw [w1]; simp, ?_, h1, by rw [h1]; exact w2⟩
  · intro c p hp
    simp only [prof1, List.mem_singleton] at hp
    subst hp
    intro n r
    exact ⟨((hasDerivAt_id n).const_add 1).add_const r, (hasDerivAt_id r).const_add (1 + n)⟩
  · simp [gal1]
  · simp [gal1, Source.WF]
  · simp [gal1, Usual]
  · simp [gal1]
  · simp [gal1, Spec.plan, slowPlan]
  · have := Sources.C21_get_set gal1 rfl [5, 3, 0, 0, 1, 0, 0, 0] (by
      rw [Sources.getParams_none]
      simp [gal1, Sources.vecAttrs])
    simp only [setAll, Sources.setAllFrom]
    have hn : gal1.nParams = 8 := rfl
    rw [hn]
    simp only [List.take_succ_cons, List.take_zero, List.drop_zero, this]
    simp [gal1]

end Forcepho.Multi
