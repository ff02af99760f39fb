import Verif.Slow.Render
import Verif.Sources.Catalog
import Verif.Quantile.Props
import Verif.Chain.Model

/-! # Half-light radii of the combined sources (forcepho/postprocess.py)

`combined_rhalf` (postprocess.py:590-608) and `forcepho_slow_model` (postprocess.py:611-641), on top of the models of
`get_sample_cat` (`Verif.Chain.Model`), of `from_catalog_row` (`Verif.Sources.Model`) and of `render`
(`Verif.Slow.Render`).

Numbers are real; `none` for an image is an exception, `none` for a radius is not-a-number.  Only the default
`sources=slice(None)` is modelled, and `np.argsort` is any function that sorts: the default sort of numpy leaves the
order of equal values open. -/

set_option autoImplicit false

namespace Forcepho.Postprocess.HalfLight

open Forcepho.Kernel (M22)
open Forcepho.Multi (Prof)
open Forcepho.Sources (Cls Attr CatRow)
open Forcepho.Slow (Stamp PComp Opts)
open Forcepho.Slow.Render (grid render expected imageCov mat normal pixelValue)
open Forcepho.Quantile (interp interpFrom cumsum allSome)

/-- The default `PointSpreadFunction()` (slow/psf.py:25-34): one gaussian of unit covariance. -/
def defaultPsf : List PComp := [⟨1, (0, 0), ⟨1, 0, 0, 1⟩⟩]

/-- `stamp.psf = psf` (postprocess.py:622-624): the stamp of the caller is changed. `none` is the default argument; the
flag says that the units are arcsec. -/
def setPsf (st : Stamp) : Option (List PComp × Bool) → Stamp
  | none => { st with psf := defaultPsf, arcsec := false }
  | some p => { st with psf := p.1, arcsec := p.2 }

/-- The body of the loop of `forcepho_slow_model` (postprocess.py:630-639): a `Galaxy` with the parameters of the row
and the flux of one band, added to the image. -/
noncomputable def addRow (prof : Cls → List Prof) (dflt : Attr → ℝ) (st : Stamp) (nx ny : Nat) (flt band : String)
    (im : List ℝ) (r : CatRow ℝ) : Option (List ℝ) :=
  match Sources.construct 0 dflt (.galaxy true) ["band"] with
  | .error _ => none
  | .ok g =>
    match Sources.fromCatalogRow { g with filternames := [band], flux := List.replicate 1 0 } r with
    | .error _ => none
    | .ok s =>
      match render prof {} false st nx ny flt s with
      | none => none
      | some i => some (List.zipWith (· + ·) im i.1)

/-- `forcepho_slow_model` (postprocess.py:611-641): the image and the stamp as it is left. `flt` is the filter of the
stamp. -/
noncomputable def slowModel (prof : Cls → List Prof) (dflt : Attr → ℝ) (psf : Option (List PComp × Bool)) (st : Stamp)
    (nx ny : Nat) (flt band : String) (rows : List (CatRow ℝ)) : Option (List ℝ × Stamp) :=
  (rows.foldl (fun acc r => acc.bind fun im => addRow prof dflt (setPsf st psf) nx ny flt band im r)
    (some (List.replicate (nx * ny) 0))).map fun im => (im, setPsf st psf)

/-- `np.hypot` of the distance to a point, for every pixel (postprocess.py:602). -/
noncomputable def radii (px : List (ℝ × ℝ)) (c : ℝ × ℝ) : List ℝ :=
  px.map fun p => Real.sqrt ((p.1 - c.1) ^ 2 + (p.2 - c.2) ^ 2)

/-- The mean position (postprocess.py:601). -/
noncomputable def centre (px : List (ℝ × ℝ)) (im : List ℝ) : ℝ × ℝ :=
  ((List.zipWith (fun p f => p.1 * f) px im).sum / im.sum, (List.zipWith (fun p f => p.2 * f) px im).sum / im.sum)

open Classical in
/-- The radius for one image (postprocess.py:601-606). An image without flux gives not-a-number. `np.interp` is
modelled for non-decreasing abscissae only, that is for images that are nowhere negative. -/
noncomputable def halfLight (argsort : List ℝ → List Nat) (px : List (ℝ × ℝ)) (im : List ℝ) : Option ℝ :=
  if im.sum = 0 then none
  else
    let r := radii px (centre px im)
    let oo := argsort r
    interp (((cumsum 0 (oo.map fun i => im.getD i 0)).map (· / im.sum)).zip (oo.map fun i => r.getD i 0)) (1 / 2)

/-- The rows of a catalog. -/
def rowsOf (t : Chain.Table ℝ) : List (CatRow ℝ) :=
  (List.range t.nrow).map fun s => t.names.map fun n => (n, t.at_ s n)

/-- Python's `range(start, stop, step)` for a positive step. -/
def pyRange (start stop : Int) (step : Nat) : List Int :=
  (List.range (((stop - start).toNat + step - 1) / step)).map fun k => start + (step * k : Nat)

/-- `combined_rhalf` (postprocess.py:590-608): the radii, and the stamp as it is left. The chain has as many iterations
as its catalog. A step of zero is a `ValueError`. -/
noncomputable def combinedRhalf (argsort : List ℝ → List Nat) (prof : Cls → List Prof) (dflt : Attr → ℝ)
    (cat : Chain.ChainCat ℝ) (active : Chain.Table ℝ) (nsample step : Nat) (st : Stamp) (nx ny : Nat)
    (flt band : String) : Option (List (Option ℝ) × Stamp) :=
  if step = 0 then none
  else
    let inds := pyRange ((cat.niter : Int) - nsample) cat.niter step
    (allSome (inds.map fun i =>
      match Chain.getSampleCat cat i active with
      | none => none
      | some t => (slowModel prof dflt none st nx ny flt band (rowsOf t)).map fun im =>
          halfLight argsort (grid nx ny) im.1)).map fun out =>
      (out, if inds = [] then st else setPsf st none)

/-! ## Specification -/

/-- A function that sorts. -/
def IsArgsort (argsort : List ℝ → List Nat) : Prop :=
  ∀ r : List ℝ, (argsort r).Perm (List.range r.length) ∧
    (argsort r).Pairwise fun i j => r.getD i 0 ≤ r.getD j 0

/-- The distance of two points in the plane. -/
noncomputable def dist (p c : ℝ × ℝ) : ℝ := Real.sqrt ((p.1 - c.1) ^ 2 + (p.2 - c.2) ^ 2)

/-- The flux of the pixels with centres at most `t` from `c`. -/
noncomputable def within (px : List (ℝ × ℝ)) (im : List ℝ) (c : ℝ × ℝ) (t : ℝ) : ℝ :=
  ((px.zip im).map fun p => if dist p.1 c ≤ t then p.2 else 0).sum

/-- The flux-weighted mean position. -/
def IsCentroid (px : List (ℝ × ℝ)) (im : List ℝ) (c : ℝ × ℝ) : Prop :=
  ((px.zip im).map fun p => p.2 * (p.1.1 - c.1)).sum = 0 ∧ ((px.zip im).map fun p => p.2 * (p.1.2 - c.2)).sum = 0

/-- A half-light radius as far as pixels go: less than `R` away from the centroid is at most half of the flux, and
every pixel that is `R` or more away has, together with what is nearer, at least half of it inside. It lies between the
nearest and the farthest pixel. -/
def IsHalf (px : List (ℝ × ℝ)) (im : List ℝ) (R : ℝ) : Prop :=
  ∃ c, IsCentroid px im c ∧ (∀ t < R, within px im c t ≤ im.sum / 2) ∧
    (∀ p ∈ px, R ≤ dist p c → im.sum / 2 ≤ within px im c (dist p c)) ∧
    (∃ p ∈ px, dist p c ≤ R) ∧ ∃ p ∈ px, R ≤ dist p c

/-- The parameters of a galaxy. -/
structure Gal where
  ra : ℝ
  dec : ℝ
  q : ℝ
  pa : ℝ
  sersic : ℝ
  rhalf : ℝ
  flux : ℝ

/-- A row that gives these parameters. -/
def Reads (band : String) (r : CatRow ℝ) (g : Gal) : Prop :=
  r.get "ra" = .ok g.ra ∧ r.get "dec" = .ok g.dec ∧ r.get "q" = .ok g.q ∧ r.get "pa" = .ok g.pa ∧
    r.get "sersic" = .ok g.sersic ∧ r.get "rhalf" = .ok g.rhalf ∧ r.get band = .ok g.flux

/-- What the galaxies are expected to give in a pixel of a stamp whose PSF is a gaussian of unit variance. -/
noncomputable def sceneValue (prof : List Prof) (st : Stamp) (gals : List Gal) (x y : ℝ) : ℝ :=
  (gals.map fun g => expected true { st with psf := [⟨1, (0, 0), ⟨1, 0, 0, 1⟩⟩], arcsec := false }
    (prof.map fun c => (c.cov, c.A g.sersic g.rhalf)) g.flux g.ra g.dec g.q g.pa x y).sum

/-- Covariances of a profile: symmetric and not negative. -/
def CovOk (c : Prof) : Prop :=
  c.cov.v12 = c.cov.v21 ∧ 0 ≤ c.cov.v11 ∧ 0 ≤ c.cov.v22 ∧ c.cov.v12 ^ 2 ≤ c.cov.v11 * c.cov.v22

/-! ## Finding the radius -/

lemma div_half {a F : ℝ} (hF : 0 < F) : a / F ≤ 1 / 2 ↔ a ≤ F / 2 := by
  rw [div_le_div_iff₀ hF two_pos]
  constructor <;> intro h <;> linarith

lemma sum_within_nonneg (l : List (ℝ × ℝ)) (h : ∀ p ∈ l, 0 ≤ p.2) (t : ℝ) :
    0 ≤ (l.map fun p => if p.1 ≤ t then p.2 else 0).sum := by
  apply List.sum_nonneg
  intro x hx
  obtain ⟨p, hp, rfl⟩ := List.mem_map.mp hx
  split
  · exact h p hp
  · exact le_rfl

lemma sum_within_none (l : List (ℝ × ℝ)) (t : ℝ) (h : ∀ p ∈ l, t < p.1) :
    (l.map fun p => if p.1 ≤ t then p.2 else 0).sum = 0 := by
  apply List.sum_eq_zero
  intro x hx
  obtain ⟨p, hp, rfl⟩ := List.mem_map.mp hx
  exact if_neg (not_le.mpr (h p hp))

lemma core (F : ℝ) (hF : 0 < F) (rest : List (ℝ × ℝ)) : ∀ (acc u : ℝ), (∀ p ∈ rest, u ≤ p.1) →
    rest.Pairwise (fun a b => a.1 ≤ b.1) → (∀ p ∈ rest, 0 ≤ p.2) → acc / F ≤ 1 / 2 →
    acc + (rest.map (·.2)).sum = F →
    u ≤ interpFrom (acc / F) u (((cumsum acc (rest.map (·.2))).map (· / F)).zip (rest.map (·.1))) (1 / 2) ∧
    (∃ p ∈ rest, interpFrom (acc / F) u (((cumsum acc (rest.map (·.2))).map (· / F)).zip (rest.map (·.1))) (1 / 2) ≤ p.1) ∧
    (∀ t < interpFrom (acc / F) u (((cumsum acc (rest.map (·.2))).map (· / F)).zip (rest.map (·.1))) (1 / 2),
      acc + (rest.map fun p => if p.1 ≤ t then p.2 else 0).sum ≤ F / 2) ∧
    (∀ b ∈ rest, interpFrom (acc / F) u (((cumsum acc (rest.map (·.2))).map (· / F)).zip (rest.map (·.1))) (1 / 2) ≤ b.1 →
      F / 2 ≤ acc + (rest.map fun p => if p.1 ≤ b.1 then p.2 else 0).sum) ∧
    (interpFrom (acc / F) u (((cumsum acc (rest.map (·.2))).map (· / F)).zip (rest.map (·.1))) (1 / 2) = u →
      F / 2 ≤ acc + (rest.map fun p => if p.1 ≤ u then p.2 else 0).sum) := by
  induction rest with
  | nil =>
    intro acc u _ _ _ h1 h2
    simp only [List.map_nil, List.sum_nil, add_zero] at h2
    rw [h2, div_self hF.ne'] at h1
    norm_num at h1
  | cons q rest ih =>
    obtain ⟨v, f⟩ := q
    intro acc u hu hs hnn h1 h2
    have huv : u ≤ v := hu (v, f) (by simp)
    have hf : 0 ≤ f := hnn (v, f) (by simp)
    rw [List.pairwise_cons] at hs
    obtain ⟨hv, hs⟩ := hs
    have hnn' : ∀ p ∈ rest, 0 ≤ p.2 := fun p hp => hnn p (List.mem_cons_of_mem _ hp)
    have hv' : ∀ p ∈ rest, v ≤ p.1 := fun p hp => hv p hp
    have hacc := (div_half hF).mp h1
    simp only [List.map_cons, List.sum_cons] at h2
    simp only [List.map_cons, cumsum, List.zip_cons_cons, interpFrom]
    by_cases hlt : (1 : ℝ) / 2 < (acc + f) / F
    · rw [if_pos hlt]
      have hlt' : F / 2 < acc + f := by
        by_contra h
        exact absurd ((div_half hF).mpr (not_lt.mp h)) (not_le.mpr hlt)
      have hfpos : 0 < f := by linarith
      have hgap : (acc + f) / F - acc / F = f / F := by ring
      obtain ⟨lam, hlam⟩ : ∃ lam, lam = (1 / 2 - acc / F) / (f / F) := ⟨_, rfl⟩
      have hfF : 0 < f / F := div_pos hfpos hF
      have hl0 : 0 ≤ lam := by
        rw [hlam]
        exact div_nonneg (by linarith) hfF.le
      have hl1 : lam ≤ 1 := by
        rw [hlam, div_le_one hfF]
        rw [add_div] at hlt
        linarith
      have hR : u + (v - u) / ((acc + f) / F - acc / F) * (1 / 2 - acc / F) = u + lam * (v - u) := by
        rw [hgap, hlam]
        field_simp
      rw [hR]
      have hRv : u + lam * (v - u) ≤ v := by nlinarith
      have hRu : u ≤ u + lam * (v - u) := by nlinarith
      have hbig : ∀ b, v ≤ b → F / 2 ≤ acc + ((if v ≤ b then f else 0) +
          (rest.map fun p => if p.1 ≤ b then p.2 else 0).sum) := by
        intro b hb
        rw [if_pos hb]
        have := sum_within_nonneg rest hnn' b
        linarith
      refine ⟨hRu, ⟨(v, f), by simp, hRv⟩, ?_, ?_, ?_⟩
      · intro t ht
        have htv : t < v := lt_of_lt_of_le ht hRv
        simp only [List.sum_cons]
        rw [if_neg (not_le.mpr htv), sum_within_none rest t fun p hp => lt_of_lt_of_le htv (hv' p hp)]
        linarith
      · intro b hb hle
        simp only [List.sum_cons]
        rcases List.mem_cons.mp hb with rfl | hb
        · exact hbig v le_rfl
        · exact hbig b.1 (hv' b hb)
      · intro he
        simp only [List.sum_cons]
        by_cases huv' : v ≤ u
        · exact hbig u huv'
        · have h0 : lam = 0 := by
            have : lam * (v - u) = 0 := by linarith
            rcases mul_eq_zero.mp this with h | h
            · exact h
            · exact absurd (by linarith) huv'
          rw [hlam, div_eq_zero_iff] at h0
          have h3 : acc / F = 1 / 2 := by
            rcases h0 with h | h
            · linarith
            · exact absurd h hfF.ne'
          have h4 : acc = F / 2 := by
            rw [div_eq_iff hF.ne'] at h3
            linarith
          have := sum_within_nonneg rest hnn' u
          rw [if_neg huv']
          linarith
    · rw [if_neg hlt]
      obtain ⟨i1, ⟨p, hp, i2⟩, i3, i4, i5⟩ := ih (acc + f) v hv' hs hnn' (not_lt.mp hlt) (by linarith)
      refine ⟨le_trans huv i1, ⟨p, List.mem_cons_of_mem _ hp, i2⟩, ?_, ?_, ?_⟩
      · intro t ht
        simp only [List.sum_cons]
        by_cases hvt : v ≤ t
        · rw [if_pos hvt]
          have := i3 t ht
          linarith
        · rw [if_neg hvt, sum_within_none rest t fun p hp => lt_of_lt_of_le (not_le.mp hvt) (hv' p hp)]
          linarith
      · intro b hb hle
        simp only [List.sum_cons]
        rcases List.mem_cons.mp hb with rfl | hb
        · dsimp only at hle ⊢
          rw [if_pos le_rfl]
          have := i5 (le_antisymm hle i1)
          linarith
        · rw [if_pos (hv' b hb)]
          have := i4 b hb hle
          linarith
      · intro he
        have hvu : v = u := le_antisymm (by rw [← he]; exact i1) huv
        subst hvu
        simp only [List.sum_cons]
        rw [if_pos le_rfl]
        have := i5 he
        linarith

/-- The radius found in a sorted list of radii and fluxes. -/
lemma core_interp (F : ℝ) (hF : 0 < F) (s : List (ℝ × ℝ)) (hs : s.Pairwise (fun a b => a.1 ≤ b.1))
    (hnn : ∀ p ∈ s, 0 ≤ p.2) (hsum : (s.map (·.2)).sum = F) :
    ∃ R, interp (((cumsum 0 (s.map (·.2))).map (· / F)).zip (s.map (·.1))) (1 / 2) = some R ∧
      (∃ p ∈ s, p.1 ≤ R) ∧ (∃ p ∈ s, R ≤ p.1) ∧
      (∀ t < R, (s.map fun p => if p.1 ≤ t then p.2 else 0).sum ≤ F / 2) ∧
      ∀ b ∈ s, R ≤ b.1 → F / 2 ≤ (s.map fun p => if p.1 ≤ b.1 then p.2 else 0).sum := by
  cases s with
  | nil =>
    simp only [List.map_nil, List.sum_nil] at hsum
    exact absurd hsum hF.ne
  | cons q rest =>
    obtain ⟨a, f⟩ := q
    rw [List.pairwise_cons] at hs
    obtain ⟨ha, hs⟩ := hs
    have hf : 0 ≤ f := hnn (a, f) (by simp)
    have hnn' : ∀ p ∈ rest, 0 ≤ p.2 := fun p hp => hnn p (List.mem_cons_of_mem _ hp)
    have ha' : ∀ p ∈ rest, a ≤ p.1 := fun p hp => ha p hp
    simp only [List.map_cons, List.sum_cons] at hsum
    simp only [List.map_cons, cumsum, List.zip_cons_cons, interp, zero_add, List.sum_cons]
    by_cases hlt : (1 : ℝ) / 2 < f / F
    · rw [if_pos hlt]
      have hlt' : F / 2 < f := by
        by_contra h
        exact absurd ((div_half hF).mpr (not_lt.mp h)) (not_le.mpr hlt)
      refine ⟨a, rfl, ⟨(a, f), by simp, le_rfl⟩, ⟨(a, f), by simp, le_rfl⟩, ?_, ?_⟩
      · intro t ht
        rw [if_neg (not_le.mpr ht), sum_within_none rest t fun p hp => lt_of_lt_of_le ht (ha' p hp)]
        linarith
      · intro b hb hle
        rw [if_pos hle]
        have := sum_within_nonneg rest hnn' b.1
        linarith
    · rw [if_neg hlt]
      obtain ⟨i1, ⟨p, hp, i2⟩, i3, i4, i5⟩ := core F hF rest f a ha' hs hnn' (not_lt.mp hlt) hsum
      refine ⟨_, rfl, ⟨(a, f), by simp, i1⟩, ⟨p, List.mem_cons_of_mem _ hp, i2⟩, ?_, ?_⟩
      · intro t ht
        by_cases hat : a ≤ t
        · rw [if_pos hat]
          exact i3 t ht
        · rw [if_neg hat, sum_within_none rest t fun p hp => lt_of_lt_of_le (not_le.mp hat) (ha' p hp)]
          linarith
      · intro b hb hle
        rcases List.mem_cons.mp hb with rfl | hb
        · dsimp only at hle ⊢
          rw [if_pos le_rfl]
          exact i5 (le_antisymm hle i1)
        · rw [if_pos (ha' b hb)]
          exact i4 b hb hle

lemma map_range_zip : ∀ (r f : List ℝ), r.length = f.length →
    (List.range r.length).map (fun i => (r.getD i 0, f.getD i 0)) = r.zip f := by
  intro r f h
  apply List.ext_getElem?
  intro i
  rw [List.getElem?_map]
  by_cases hi : i < r.length
  · have hi' : i < f.length := h ▸ hi
    have hz : (r.zip f)[i]? = some (r[i], f[i]) :=
      List.getElem?_zip_eq_some.mpr ⟨List.getElem?_eq_getElem hi, List.getElem?_eq_getElem hi'⟩
    rw [List.getElem?_range hi, hz, Option.map_some]
    simp [List.getD_eq_getElem?_getD, hi, hi']
  · rw [List.getElem?_eq_none (by simpa using hi), List.getElem?_eq_none (by simp; omega)]
    rfl

lemma centre_centroid (px : List (ℝ × ℝ)) (im : List ℝ) (hl : px.length = im.length) (hF : im.sum ≠ 0) :
    IsCentroid px im (centre px im) := by
  have key : ∀ (g : ℝ × ℝ → ℝ) (m : ℝ) (px : List (ℝ × ℝ)) (im : List ℝ), px.length = im.length →
      ((px.zip im).map fun p => p.2 * (g p.1 - m)).sum = (List.zipWith (fun p f => g p * f) px im).sum - m * im.sum := by
    intro g m px
    induction px with
    | nil =>
      intro im h
      cases im with
      | nil => simp
      | cons a l => simp at h
    | cons a l ih =>
      intro im h
      cases im with
      | nil => simp at h
      | cons b k =>
        simp only [List.zip_cons_cons, List.map_cons, List.sum_cons, List.zipWith_cons_cons]
        rw [ih k (by simpa using h)]
        ring
  constructor
  · rw [key (fun p => p.1) _ px im hl, centre]
    field_simp
    ring
  · rw [key (fun p => p.2) _ px im hl, centre]
    field_simp
    ring

/-- C137 (the radius of an image). However the sort orders equal distances, an image that is nowhere negative and not
zero gets a half-light radius: at most half of the flux is nearer to the centroid, at least half is inside the first
pixel at that distance or beyond. -/
theorem C137_half (argsort : List ℝ → List Nat) (hs : IsArgsort argsort) (px : List (ℝ × ℝ)) (im : List ℝ)
    (hl : px.length = im.length) (hnn : ∀ f ∈ im, 0 ≤ f) (hF : 0 < im.sum) :
    ∃ R, halfLight argsort px im = some R ∧ IsHalf px im R := by
  obtain ⟨hp, hsort⟩ := hs (radii px (centre px im))
  have hrl : (radii px (centre px im)).length = im.length := by rw [radii, List.length_map, hl]
  generalize hr : radii px (centre px im) = r at hp hsort hrl
  generalize ho : argsort r = oo at hp hsort
  have hperm : (oo.map fun i => (r.getD i 0, im.getD i 0)).Perm (r.zip im) := by
    rw [← map_range_zip r im hrl]
    exact hp.map _
  have hz : r.zip im = (px.zip im).map fun p => (dist p.1 (centre px im), p.2) := by
    rw [← hr, radii, List.zip_map_left]
    rfl
  obtain ⟨R, h1, ⟨p1, hp1, h2⟩, ⟨p2, hp2, h3⟩, h4, h5⟩ := core_interp im.sum hF
    (oo.map fun i => (r.getD i 0, im.getD i 0)) (List.pairwise_map.mpr hsort)
    (fun p h => by
      have := (hperm.mem_iff).mp h
      obtain ⟨-, hb⟩ := List.of_mem_zip (show (p.1, p.2) ∈ _ from this)
      exact hnn _ hb)
    (by
      rw [(hperm.map _).sum_eq, List.map_snd_zip (by omega)])
  have hin : ∀ t, ((oo.map fun i => (r.getD i 0, im.getD i 0)).map fun p => if p.1 ≤ t then p.2 else 0).sum =
      within px im (centre px im) t := by
    intro t
    rw [(hperm.map _).sum_eq, hz, List.map_map, within]
    rfl
  have hmem : ∀ p, p ∈ (oo.map fun i => (r.getD i 0, im.getD i 0)) → ∃ x ∈ px, dist x (centre px im) = p.1 := by
    intro p h
    have := (hperm.mem_iff).mp h
    rw [hz] at this
    obtain ⟨⟨x, f⟩, hx, rfl⟩ := List.mem_map.mp this
    exact ⟨x, (List.of_mem_zip hx).1, rfl⟩
  have hmem' : ∀ x ∈ px, ∃ f, (dist x (centre px im), f) ∈ (oo.map fun i => (r.getD i 0, im.getD i 0)) := by
    intro x hx
    obtain ⟨i, hi, rfl⟩ := List.mem_iff_getElem.mp hx
    refine ⟨im[i]'(hl ▸ hi), (hperm.mem_iff).mpr ?_⟩
    rw [hz]
    refine List.mem_map.mpr ⟨(px[i], im[i]'(hl ▸ hi)), ?_, rfl⟩
    rw [List.mem_iff_getElem]
    exact ⟨i, by simp; omega, by simp⟩
  refine ⟨R, ?_, centre px im, centre_centroid px im hl hF.ne', ?_, ?_, ?_, ?_⟩
  · rw [halfLight, if_neg hF.ne']
    dsimp only
    rw [hr, ho]
    rw [List.map_map, List.map_map] at h1
    exact h1
  · intro t ht
    rw [← hin]
    exact h4 t ht
  · intro p hpx hR
    obtain ⟨f, hf⟩ := hmem' p hpx
    have := h5 _ hf hR
    rw [hin] at this
    exact this
  · obtain ⟨x, hx, e⟩ := hmem p1 hp1
    exact ⟨x, hx, by rw [e]; exact h2⟩
  · obtain ⟨x, hx, e⟩ := hmem p2 hp2
    exact ⟨x, hx, by rw [e]; exact h3⟩

/-- C137 (order). If no two pixels are equally far from the centroid, the radius does not depend on the sort. -/
theorem C137_order (a b : List ℝ → List Nat) (ha : IsArgsort a) (hb : IsArgsort b) (px : List (ℝ × ℝ)) (im : List ℝ)
    (hd : ∀ c, IsCentroid px im c → (px.map fun p => dist p c).Nodup) (hl : px.length = im.length) :
    halfLight a px im = halfLight b px im := by
  unfold halfLight
  split
  · rfl
  · next hF =>
    have hn := hd _ (centre_centroid px im hl hF)
    have he : a (radii px (centre px im)) = b (radii px (centre px im)) := by
      obtain ⟨a1, a2⟩ := ha (radii px (centre px im))
      obtain ⟨b1, b2⟩ := hb (radii px (centre px im))
      have hr : radii px (centre px im) = px.map fun p => dist p (centre px im) := rfl
      rw [← hr] at hn
      refine (a1.trans b1.symm).eq_of_pairwise ?_ a2 b2
      intro i j hi hj h1 h2
      have hi' : i < (radii px (centre px im)).length := by simpa using (a1.mem_iff).mp hi
      have hj' : j < (radii px (centre px im)).length := by simpa using (b1.mem_iff).mp hj
      have := le_antisymm h1 h2
      rw [List.getD_eq_getElem?_getD, List.getD_eq_getElem?_getD, List.getElem?_eq_getElem hi',
        List.getElem?_eq_getElem hj', Option.getD_some, Option.getD_some] at this
      exact (List.Nodup.getElem_inj_iff hn).mp this
    simp only [he]

/-- A sort to begin with. -/
noncomputable def someSort (r : List ℝ) : List Nat :=
  (List.range r.length).insertionSort fun i j => r.getD i 0 ≤ r.getD j 0

lemma someSort_ok : IsArgsort someSort := by
  intro r
  refine ⟨List.perm_insertionSort _ _, ?_⟩
  have : Std.Total fun i j : Nat => r.getD i 0 ≤ r.getD j 0 := ⟨fun i j => le_total _ _⟩
  have : IsTrans Nat fun i j : Nat => r.getD i 0 ≤ r.getD j 0 := ⟨fun i j k h1 h2 => le_trans h1 h2⟩
  exact List.pairwise_insertionSort _ _

/-- The distances in the witness. -/
def wR : List ℝ := [1, 0, 1, 2]

open Classical in
/-- Sorts that differ in the order of two equal distances. -/
noncomputable def wSort (o : List Nat) (r : List ℝ) : List Nat := if r = wR then o else someSort r

lemma wSort_ok (o : List Nat) (h1 : o.Perm (List.range 4)) (h2 : o.Pairwise fun i j => wR.getD i 0 ≤ wR.getD j 0) :
    IsArgsort (wSort o) := by
  intro r
  unfold wSort
  split
  · next h => subst h; exact ⟨h1, h2⟩
  · exact someSort_ok r

/-- C137 (order, refuted). Four pixels in a row with fluxes 3, 1, 1, 1: two of them are at the same distance from the
centroid, and the radius is two thirds of a pixel or one pixel, depending on which of them the sort puts first. -/
theorem C137_order_refuted : ∃ (a b : List ℝ → List Nat) (px : List (ℝ × ℝ)) (im : List ℝ),
    IsArgsort a ∧ IsArgsort b ∧ px.length = im.length ∧ (∀ f ∈ im, 0 < f) ∧
    halfLight a px im = some (2 / 3) ∧ halfLight b px im = some 1 := by
  have hc : centre [(0, 0), (0, 1), (0, 2), (0, 3)] [3, 1, 1, 1] = ((0 : ℝ), (1 : ℝ)) := by
    simp only [centre, List.zipWith_cons_cons, List.zipWith_nil_left, List.sum_cons, List.sum_nil]
    norm_num
  have hr : radii [(0, 0), (0, 1), (0, 2), (0, 3)] (0, 1) = wR := by
    simp only [radii, wR, List.map_cons, List.map_nil]
    norm_num
    rw [show (4 : ℝ) = 2 ^ 2 by norm_num, Real.sqrt_sq (by norm_num)]
  have hs : ([3, 1, 1, 1] : List ℝ).sum = 6 := by norm_num
  refine ⟨wSort [1, 0, 2, 3], wSort [1, 2, 0, 3], [(0, 0), (0, 1), (0, 2), (0, 3)], [3, 1, 1, 1],
    wSort_ok _ (by decide) (by simp [wR]), wSort_ok _ (by decide) (by simp [wR]), rfl, by simp, ?_, ?_⟩
  · rw [halfLight, hs, if_neg (by norm_num), hc, hr]
    simp only [wSort, if_true, List.map_cons, List.map_nil, wR, List.getD_cons_zero, List.getD_cons_succ, cumsum,
      List.zip_cons_cons, List.zip_nil_left, interp, interpFrom]
    norm_num
  · rw [halfLight, hs, if_neg (by norm_num), hc, hr]
    simp only [wSort, if_true, List.map_cons, List.map_nil, wR, List.getD_cons_zero, List.getD_cons_succ, cumsum,
      List.zip_cons_cons, List.zip_nil_left, interp, interpFrom]
    norm_num

/-- C137 (units of flux and origin). The radius does not change when all fluxes are multiplied by the same number or
the coordinates are counted from somewhere else. -/
theorem C137_invariant (argsort : List ℝ → List Nat) (px : List (ℝ × ℝ)) (im : List ℝ) (hl : px.length = im.length)
    (k : ℝ) (hk : k ≠ 0) (d : ℝ × ℝ) :
    halfLight argsort (px.map fun p => (p.1 + d.1, p.2 + d.2)) (im.map (k * ·)) = halfLight argsort px im := by
  have hsum : (im.map (k * ·)).sum = k * im.sum := by
    induction im generalizing px with
    | nil => simp
    | cons a l ih =>
      simp only [List.map_cons, List.sum_cons]
      rw [ih px.tail (by simp [hl])]
      ring
  have hz : ∀ (g : ℝ × ℝ → ℝ) (m : ℝ) (T : ℝ × ℝ → ℝ × ℝ), (∀ p, g (T p) = g p + m) → ∀ (px : List (ℝ × ℝ))
      (im : List ℝ), px.length = im.length →
      (List.zipWith (fun p f => g p * f) (px.map T) (im.map (k * ·))).sum =
        k * (List.zipWith (fun p f => g p * f) px im).sum + m * k * im.sum := by
    intro g m T hT px
    induction px with
    | nil =>
      intro im h
      cases im with
      | nil => simp
      | cons a l => simp at h
    | cons a l ih =>
      intro im h
      cases im with
      | nil => simp at h
      | cons b q =>
        simp only [List.map_cons, List.zipWith_cons_cons, List.sum_cons]
        rw [ih q (by simpa using h), hT]
        ring
  unfold halfLight
  rw [hsum]
  by_cases hF : im.sum = 0
  · rw [if_pos (by rw [hF, mul_zero]), if_pos hF]
  · rw [if_neg (mul_ne_zero hk hF), if_neg hF]
    have hc : centre (px.map fun p => (p.1 + d.1, p.2 + d.2)) (im.map (k * ·)) =
        ((centre px im).1 + d.1, (centre px im).2 + d.2) := by
      unfold centre
      rw [hsum, hz (fun p => p.1) d.1 _ (fun p => rfl) px im hl, hz (fun p => p.2) d.2 _ (fun p => rfl) px im hl]
      ext
      · field_simp
      · field_simp
    have hr : radii (px.map fun p => (p.1 + d.1, p.2 + d.2)) ((centre px im).1 + d.1, (centre px im).2 + d.2) =
        radii px (centre px im) := by
      rw [radii, radii, List.map_map]
      apply List.map_congr_left
      intro p _
      simp only [Function.comp_apply, add_sub_add_right_eq_sub]
    have hg : ∀ i, (im.map (k * ·)).getD i 0 = k * im.getD i 0 := by
      intro i
      rw [List.getD_eq_getElem?_getD, List.getD_eq_getElem?_getD, List.getElem?_map]
      cases im[i]? <;> simp
    have hcs : ∀ (l : List Nat) (acc : ℝ), (cumsum (k * acc) (l.map fun i => (im.map (k * ·)).getD i 0)).map
        (· / (k * im.sum)) = (cumsum acc (l.map fun i => im.getD i 0)).map (· / im.sum) := by
      intro l
      induction l with
      | nil => intro acc; rfl
      | cons i l ih =>
        intro acc
        simp only [List.map_cons, cumsum, hg]
        rw [← mul_add, mul_div_mul_left _ _ hk, ← ih]
        simp only [hg]
    rw [hc, hr]
    dsimp only
    have h0 := hcs (argsort (radii px (centre px im))) 0
    rw [mul_zero] at h0
    rw [h0]

/-! ## The image -/

lemma form_nonneg {a b c : ℝ} (ha : 0 ≤ a) (hb : 0 ≤ b) (hc : c ^ 2 ≤ a * b) (u v : ℝ) :
    0 ≤ a * u ^ 2 + 2 * c * u * v + b * v ^ 2 := by
  rcases ha.eq_or_lt with h | h
  · subst h
    have h0 : c = 0 := by
      have : c ^ 2 = 0 := le_antisymm (by simpa using hc) (sq_nonneg c)
      exact pow_eq_zero_iff (two_ne_zero) |>.mp this
    subst h0
    have := mul_nonneg hb (sq_nonneg v)
    linarith
  · have h1 : 0 ≤ (a * u + c * v) ^ 2 + (a * b - c ^ 2) * v ^ 2 :=
      add_nonneg (sq_nonneg _) (mul_nonneg (by linarith) (sq_nonneg v))
    have h2 : a * (a * u ^ 2 + 2 * c * u * v + b * v ^ 2) = (a * u + c * v) ^ 2 + (a * b - c ^ 2) * v ^ 2 := by ring
    by_contra hneg
    have := mul_neg_of_pos_of_neg h (not_le.mp hneg)
    linarith

/-- The PSF that is put in. -/
def unitP : PComp := ⟨1, (0, 0), ⟨1, 0, 0, 1⟩⟩

lemma gauss_pos (s : Slow.Source) (st : Stamp) (har : st.arcsec = false) (c : Slow.Comp)
    (h1 : c.cov.v12 = c.cov.v21) (h2 : 0 ≤ c.cov.v11) (h3 : 0 ≤ c.cov.v22)
    (h4 : c.cov.v12 ^ 2 ≤ c.cov.v11 * c.cov.v22) :
    0 < Slow.fastDet (Slow.sigma s st c unitP) ∧
    (0 < s.flux → 0 < st.G → 0 < c.amp → ∀ x y, 0 < Slow.counts {} (Slow.toGaussian s st c unitP unitP.mean) x y) := by
  generalize hT : Slow.tMatrix s st = T
  obtain ⟨S, hS⟩ : ∃ S, S = Slow.sigma s st c unitP := ⟨_, rfl⟩
  obtain ⟨m11, hm11⟩ : ∃ m, m = c.cov.v11 * T.v11 ^ 2 + 2 * c.cov.v12 * T.v11 * T.v12 + c.cov.v22 * T.v12 ^ 2 := ⟨_, rfl⟩
  obtain ⟨m22, hm22⟩ : ∃ m, m = c.cov.v11 * T.v21 ^ 2 + 2 * c.cov.v12 * T.v21 * T.v22 + c.cov.v22 * T.v22 ^ 2 := ⟨_, rfl⟩
  obtain ⟨m12, hm12⟩ : ∃ m, m = c.cov.v11 * T.v11 * T.v21 + c.cov.v12 * (T.v11 * T.v22 + T.v12 * T.v21) +
    c.cov.v22 * T.v12 * T.v22 := ⟨_, rfl⟩
  have p11 : 0 ≤ m11 := hm11 ▸ form_nonneg h2 h3 h4 _ _
  have p22 : 0 ≤ m22 := hm22 ▸ form_nonneg h2 h3 h4 _ _
  have hd : 0 ≤ m11 * m22 - m12 ^ 2 := by
    have : m11 * m22 - m12 ^ 2 = (T.v11 * T.v22 - T.v12 * T.v21) ^ 2 * (c.cov.v11 * c.cov.v22 - c.cov.v12 ^ 2) := by
      rw [hm11, hm22, hm12]
      ring
    rw [this]
    exact mul_nonneg (sq_nonneg _) (by linarith)
  have s11 : S.v11 = m11 + 1 := by
    rw [hS, Slow.sigma, hT, hm11]
    simp only [M22.add, M22.mul, M22.tr, Slow.psfCov, har, unitP, Bool.false_eq_true, if_false, ← h1]
    ring
  have s22 : S.v22 = m22 + 1 := by
    rw [hS, Slow.sigma, hT, hm22]
    simp only [M22.add, M22.mul, M22.tr, Slow.psfCov, har, unitP, Bool.false_eq_true, if_false, ← h1]
    ring
  have s12 : S.v12 = m12 := by
    rw [hS, Slow.sigma, hT, hm12]
    simp only [M22.add, M22.mul, M22.tr, Slow.psfCov, har, unitP, Bool.false_eq_true, if_false, ← h1]
    ring
  have s21 : S.v21 = m12 := by
    rw [hS, Slow.sigma, hT, hm12]
    simp only [M22.add, M22.mul, M22.tr, Slow.psfCov, har, unitP, Bool.false_eq_true, if_false, ← h1]
    ring
  have hdet : Slow.fastDet S = 1 + (m11 + m22) + (m11 * m22 - m12 ^ 2) := by
    rw [Slow.fastDet, s11, s22, s12, s21]
    ring
  have hpos : 0 < Slow.fastDet S := by
    rw [hdet]
    linarith
  rw [← hS]
  refine ⟨hpos, ?_⟩
  intro hf hG ha x y
  have hdd : S.v11 * S.v22 - S.v21 * S.v12 = Slow.fastDet S := by rw [Slow.fastDet]
  have hinv : 0 < Slow.fastDet (Slow.fastInv S) := by
    have : Slow.fastDet (Slow.fastInv S) = 1 / Slow.fastDet S := by
      rw [← hdd]
      rw [← hdd] at hpos
      simp only [Slow.fastDet, Slow.fastInv]
      field_simp
    rw [this]
    exact one_div_pos.mpr hpos
  have hamp : 0 < (Slow.toGaussian s st c unitP unitP.mean).amp := by
    simp only [Slow.toGaussian, ← hS]
    have hp1 : (0 : ℝ) < unitP.amp := by simp [unitP]
    have hpi := Real.pi_pos
    exact div_pos (mul_pos (mul_pos (mul_pos (mul_pos hf hG) ha) hp1) (Real.sqrt_pos.mpr hinv)) (by linarith)
  have htr : (Slow.toGaussian s st c unitP unitP.mean).fxx + (Slow.toGaussian s st c unitP unitP.mean).fyy ≤ 2 := by
    have e : (Slow.toGaussian s st c unitP unitP.mean).fxx + (Slow.toGaussian s st c unitP unitP.mean).fyy =
        (m11 + m22 + 2) / Slow.fastDet S := by
      simp only [Slow.toGaussian, ← hS, Slow.fastInv, s11, s22]
      rw [← hdd, s11, s22, s12, s21]
      ring
    rw [e, div_le_iff₀ hpos, hdet]
    linarith
  simp only [Slow.counts, Slow.hOf, Slow.rootDet, Bool.false_eq_true, if_false, if_true, mul_one]
  refine mul_pos (mul_pos hamp (Real.exp_pos _)) ?_
  generalize (Slow.toGaussian s st c unitP unitP.mean) = g at *
  nlinarith [mul_self_nonneg (g.fxx * (x - g.xcen) + g.fxy * (y - g.ycen)),
    mul_self_nonneg (g.fyy * (y - g.ycen) + g.fxy * (x - g.xcen))]

/-- The stamp with the default PSF. -/
def unitStamp (st : Stamp) : Stamp := { st with psf := [unitP], arcsec := false }

lemma det_pos (st : Stamp) (c : Prof) (hc : CovOk c) (q pa : ℝ) :
    0 < (imageCov (mat st.D) (mat c.cov) (mat unitP.cov) q pa).det := by
  obtain ⟨h1, h2, h3, h4⟩ := hc
  have h := (gauss_pos ⟨0, 0, q, pa, 0, []⟩ (unitStamp st) rfl ⟨c.cov, 0, 0, 0⟩ h1 h2 h3 h4).1
  have e := Slow.Render.sigma_mat ⟨0, 0, q, pa, 0, []⟩ (unitStamp st) rfl ⟨c.cov, 0, 0, 0⟩ unitP
  dsimp only at e
  have e2 : (unitStamp st).D = st.D := rfl
  rw [e2] at e
  rw [← e, mat, Matrix.det_fin_two_of]
  rw [Slow.fastDet] at h
  linarith

lemma expected_pos (st : Stamp) (prof : List Prof) (hne : prof ≠ []) (hc : ∀ c ∈ prof, CovOk c) (n r : ℝ)
    (hA : ∀ c ∈ prof, 0 < c.A n r) (hG : 0 < st.G) (f : ℝ) (hf : 0 < f) (ra dec q pa x y : ℝ) :
    0 < expected true (unitStamp st) (prof.map fun c => (c.cov, c.A n r)) f ra dec q pa x y := by
  rw [expected, List.map_map]
  have hpos : ∀ v ∈ prof.map ((fun c : M22 × ℝ => ((unitStamp st).psf.map fun p =>
      let m : ℝ × ℝ := ((unitStamp st).crpix.1 + p.mean.1 + ((unitStamp st).CW.v11 * (ra - (unitStamp st).crval.1) +
          (unitStamp st).CW.v12 * (dec - (unitStamp st).crval.2)),
        (unitStamp st).crpix.2 + p.mean.2 + ((unitStamp st).CW.v21 * (ra - (unitStamp st).crval.1) +
          (unitStamp st).CW.v22 * (dec - (unitStamp st).crval.2)))
      let g := normal (imageCov (mat (unitStamp st).D) (mat c.1) (mat p.cov) q pa) m
      f * (unitStamp st).G * c.2 * p.amp * (if true then pixelValue g x y else g x y)).sum) ∘
        fun c : Prof => (c.cov, c.A n r)), 0 < v := by
    intro v hv
    obtain ⟨c, hcm, rfl⟩ := List.mem_map.mp hv
    obtain ⟨h1, h2, h3, h4⟩ := hc c hcm
    obtain ⟨g1, g2⟩ := gauss_pos ⟨ra, dec, q, pa, f, []⟩ (unitStamp st) rfl ⟨c.cov, c.A n r, 0, 0⟩ h1 h2 h3 h4
    have h := g2 hf hG (hA c hcm) x y
    rw [Slow.Render.counts_normal ⟨ra, dec, q, pa, f, []⟩ (unitStamp st) rfl ⟨c.cov, c.A n r, 0, 0⟩ unitP h1 rfl g1 true]
      at h
    simp only [Function.comp_apply, unitStamp, List.map_cons, List.map_nil, List.sum_cons, List.sum_nil, add_zero]
    exact h
  have hlen : 0 < (prof.map ((fun c : M22 × ℝ => ((unitStamp st).psf.map fun p =>
      let m : ℝ × ℝ := ((unitStamp st).crpix.1 + p.mean.1 + ((unitStamp st).CW.v11 * (ra - (unitStamp st).crval.1) +
          (unitStamp st).CW.v12 * (dec - (unitStamp st).crval.2)),
        (unitStamp st).crpix.2 + p.mean.2 + ((unitStamp st).CW.v21 * (ra - (unitStamp st).crval.1) +
          (unitStamp st).CW.v22 * (dec - (unitStamp st).crval.2)))
      let g := normal (imageCov (mat (unitStamp st).D) (mat c.1) (mat p.cov) q pa) m
      f * (unitStamp st).G * c.2 * p.amp * (if true then pixelValue g x y else g x y)).sum) ∘
        fun c : Prof => (c.cov, c.A n r))).length := by
    rw [List.length_map]
    exact List.length_pos_iff.mpr hne
  exact List.sum_pos _ hpos (List.length_pos_iff.mp hlen)

lemma addRow_eq (prof : Cls → List Prof) (dflt : Attr → ℝ) (st : Stamp) (nx ny : Nat) (band : String)
    (hne : prof (.galaxy true) ≠ []) (hc : ∀ c ∈ prof (.galaxy true), CovOk c) (r : CatRow ℝ) (g : Gal)
    (hr : Reads band r g) (im : List ℝ) (him : im.length = nx * ny) :
    ∃ im', addRow prof dflt (unitStamp st) nx ny band band im r = some im' ∧ im'.length = nx * ny ∧
      ∀ (a b : Nat) (v : ℝ), a < nx → b < ny → im[a * ny + b]? = some v → im'[a * ny + b]? = some (v +
        expected true (unitStamp st) ((prof (.galaxy true)).map fun c => (c.cov, c.A g.sersic g.rhalf)) g.flux g.ra g.dec
          g.q g.pa a b) := by
  obtain ⟨r1, r2, r3, r4, r5, r6, r7⟩ := hr
  obtain ⟨s, hs⟩ : ∃ s : Sources.Source ℝ, s = {
      cls := .galaxy true, filternames := [band], flux := [g.flux],
      attr := Function.update (Function.update (Function.update (Function.update (Function.update (Function.update dflt
        Attr.ra g.ra) Attr.dec g.dec) Attr.q g.q) Attr.pa g.pa) Attr.sersic g.sersic) Attr.rhalf g.rhalf,
      id := 0, fixed := false } := ⟨_, rfl⟩
  have hrow : Sources.fromCatalogRow
      { cls := .galaxy true, filternames := [band], flux := List.replicate 1 0, attr := dflt, id := 0, fixed := false } r =
      .ok s := by
    rw [Sources.fromCatalogRow, if_neg (by simp)]
    have ha : Sources.readAttrs r dflt (Sources.shapeCols (.galaxy true)) = .ok s.attr := by
      simp only [Sources.shapeCols, Sources.readAttrs, Attr.name, r1, r2, r3, r4, r5, r6, hs]
    have hb : Sources.readCols r [band] = .ok [g.flux] := by
      simp only [Sources.readCols, r7]
    rw [ha, hb, hs]
  obtain ⟨i, gr, h1, -, h3, h4⟩ := Slow.Render.C129_image prof true false (unitStamp st) nx ny band s rfl
    (by rw [hs]; rfl) 0 g.flux (by rw [hs]; simp [List.idxOf?_cons]) (by rw [hs]; rfl) g.q g.pa
    ⟨fun _ => by rw [hs]; exact ⟨rfl, rfl⟩, by rintro ⟨b, hb⟩; rw [hs] at hb; cases hb⟩
    (by rw [hs]; exact hne) (by simp [unitStamp]) (by rw [hs]; exact fun c h => (hc c h).1)
    (by intro p hp; simp only [unitStamp, List.mem_singleton] at hp; subst hp; rfl)
    (by
      rw [hs]
      intro c h p hp
      simp only [unitStamp, List.mem_singleton] at hp
      subst hp
      exact det_pos st c (hc c h) g.q g.pa)
  refine ⟨List.zipWith (· + ·) im i, ?_, by rw [List.length_zipWith, him, h3, min_self], ?_⟩
  · rw [addRow, Sources.construct]
    dsimp only
    rw [hrow]
    dsimp only
    have h1' : render prof {} false (unitStamp st) nx ny band s = some (i, gr) := h1
    rw [h1']
  · intro a b v ha hb hv
    have h := h4 a b ha hb
    rw [List.getElem?_zipWith, hv, h]
    dsimp only
    have e1 : s.cls = .galaxy true := by rw [hs]
    have e2 : s.attr .sersic = g.sersic := by rw [hs]; rfl
    have e3 : s.attr .rhalf = g.rhalf := by rw [hs]; rfl
    have e4 : s.attr .ra = g.ra := by rw [hs]; rfl
    have e5 : s.attr .dec = g.dec := by rw [hs]; rfl
    rw [e1, e2, e3, e4, e5]

lemma foldl_rows (prof : Cls → List Prof) (dflt : Attr → ℝ) (st : Stamp) (nx ny : Nat) (band : String)
    (hne : prof (.galaxy true) ≠ []) (hc : ∀ c ∈ prof (.galaxy true), CovOk c) (rows : List (CatRow ℝ)) :
    ∀ (gals : List Gal), List.Forall₂ (Reads band) rows gals → ∀ (im : List ℝ), im.length = nx * ny →
    ∃ im', rows.foldl (fun acc r => acc.bind fun im => addRow prof dflt (unitStamp st) nx ny band band im r) (some im) =
        some im' ∧ im'.length = nx * ny ∧
      ∀ (a b : Nat) (v : ℝ), a < nx → b < ny → im[a * ny + b]? = some v → im'[a * ny + b]? = some (v +
        sceneValue (prof (.galaxy true)) st gals a b) := by
  induction rows with
  | nil =>
    intro gals h im him
    cases h
    exact ⟨im, rfl, him, fun a b v _ _ hv => by simp [sceneValue, hv]⟩
  | cons r rows ih =>
    intro gals h im him
    cases h with
    | @cons _ g _ gs hr hrs =>
      obtain ⟨i1, e1, l1, v1⟩ := addRow_eq prof dflt st nx ny band hne hc r g hr im him
      obtain ⟨i2, e2, l2, v2⟩ := ih gs hrs i1 l1
      refine ⟨i2, ?_, l2, ?_⟩
      · rw [List.foldl_cons, Option.bind_some, e1]
        exact e2
      · intro a b v ha hb hv
        rw [v2 a b _ ha hb (v1 a b v ha hb hv)]
        simp only [sceneValue, List.map_cons, List.sum_cons]
        rw [add_assoc]
        rfl

/-- C137 (the image). The galaxies of a catalog drawn by `forcepho_slow_model` in the band of the stamp give the sum of
their images, convolved with a gaussian of unit variance in pixels whatever the PSF of the stamp; the stamp keeps that
PSF. -/
theorem C137_image (prof : Cls → List Prof) (dflt : Attr → ℝ) (st : Stamp) (nx ny : Nat) (band : String)
    (hne : prof (.galaxy true) ≠ []) (hc : ∀ c ∈ prof (.galaxy true), CovOk c) (rows : List (CatRow ℝ))
    (gals : List Gal) (hr : List.Forall₂ (Reads band) rows gals) :
    ∃ im st', slowModel prof dflt none st nx ny band band rows = some (im, st') ∧ im.length = nx * ny ∧
      (∀ a b : Nat, a < nx → b < ny → im[a * ny + b]? = some (sceneValue (prof (.galaxy true)) st gals a b)) ∧
      st'.psf = [⟨1, (0, 0), ⟨1, 0, 0, 1⟩⟩] ∧ st'.arcsec = false ∧
      st' = { st with psf := st'.psf, arcsec := st'.arcsec } := by
  obtain ⟨im, e, l, v⟩ := foldl_rows prof dflt st nx ny band hne hc rows gals hr (List.replicate (nx * ny) 0) (by simp)
  refine ⟨im, unitStamp st, ?_, l, ?_, rfl, rfl, rfl⟩
  · rw [slowModel]
    have : setPsf st none = unitStamp st := rfl
    rw [this, e]
    rfl
  · intro a b ha hb
    have hlt : a * ny + b < nx * ny := by nlinarith
    rw [v a b 0 ha hb (by simp [hlt]), zero_add]

/-- C137 (the filter). A stamp in another filter than the band asked for makes it fail. -/
theorem C137_filter (prof : Cls → List Prof) (dflt : Attr → ℝ) (psf : Option (List PComp × Bool)) (st : Stamp)
    (nx ny : Nat) (flt band : String) (hfb : flt ≠ band) (r : CatRow ℝ) (rows : List (CatRow ℝ)) :
    slowModel prof dflt psf st nx ny flt band (r :: rows) = none := by
  have h0 : ∀ im, addRow prof dflt (setPsf st psf) nx ny flt band im r = none := by
    intro im
    rw [addRow, Sources.construct]
    dsimp only
    cases h : Sources.fromCatalogRow
      { cls := .galaxy true, filternames := [band], flux := List.replicate 1 0, attr := dflt, id := 0, fixed := false } r with
    | error e => rfl
    | ok s =>
      dsimp only
      have hs := (Sources.fromCatalogRow_spec _ s r (by simp) h).2.1
      dsimp only at hs
      have : Slow.Render.read prof flt s = none := by
        rw [Slow.Render.read, Slow.Render.fluxOf, if_neg]
        · rfl
        · rw [hs]
          simpa using hfb
      rw [render, this]
  have h1 : ∀ rows : List (CatRow ℝ), rows.foldl (fun acc r => acc.bind fun im =>
      addRow prof dflt (setPsf st psf) nx ny flt band im r) none = none := by
    intro rows
    induction rows with
    | nil => rfl
    | cons a l ih => rw [List.foldl_cons]; exact ih
  rw [slowModel, List.foldl_cons, Option.bind_some, h0, h1]
  rfl

/-! ## The whole chain -/

lemma allSome_map {α β : Type} (f : α → Option β) (g : α → β) (l : List α) (h : ∀ a ∈ l, f a = some (g a)) :
    allSome (l.map f) = some (l.map g) := by
  induction l with
  | nil => rfl
  | cons a l ih =>
    rw [List.map_cons, h a (by simp), allSome, ih fun b hb => h b (List.mem_cons_of_mem _ hb)]
    rfl

lemma get_row (t : Chain.Table ℝ) (s : Nat) (n : String) (hn : n ∈ t.names) :
    CatRow.get (t.names.map fun n => (n, t.at_ s n)) n = .ok (t.at_ s n) := by
  generalize t.names = l at hn
  have : (l.map fun n => (n, t.at_ s n)).find? (fun e => e.1 = n) = some (n, t.at_ s n) := by
    induction l with
    | nil => cases hn
    | cons a l ih =>
      rw [List.map_cons, List.find?_cons]
      by_cases h : a = n
      · subst h
        simp
      · have hmem : n ∈ l := by
          rcases List.mem_cons.mp hn with h' | h'
          · exact absurd h'.symm h
          · exact h'
        simp only [h, decide_false]
        exact ih hmem
  rw [CatRow.get, this]

/-- The galaxy of a source at an iteration of the chain. -/
def galAt (cat : Chain.ChainCat ℝ) (band : String) (it s : Nat) : Gal :=
  ⟨cat.val s "ra" it, cat.val s "dec" it, cat.val s "q" it, cat.val s "pa" it, cat.val s "sersic" it,
    cat.val s "rhalf" it, cat.val s band it⟩

/-- C137. For a chain whose galaxies have positive fluxes, drawn on a stamp in the band asked for, `combined_rhalf`
answers with one number for each `step`-th of the last `n_sample` iterations, beginning with the first of them; each is
a half-light radius, in pixels about the centroid, of the galaxies of that iteration together, convolved with a gaussian
of unit variance. How the sort treats equal distances does not matter for that. -/
theorem C137_chain (argsort : List ℝ → List Nat) (hsort : IsArgsort argsort) (prof : Cls → List Prof) (dflt : Attr → ℝ)
    (cat : Chain.ChainCat ℝ) (active : Chain.Table ℝ) (nsample step : Nat) (st : Stamp) (nx ny : Nat) (band : String)
    (hrows : active.nrow = cat.nsource) (hsrc : 0 < cat.nsource)
    (hcols : ∀ n ∈ ["ra", "dec", "q", "pa", "sersic", "rhalf", band], n ∈ active.names ∧ n ∈ cat.names)
    (hns : nsample ≤ cat.niter) (hstep : 0 < step) (hnx : 0 < nx) (hny : 0 < ny) (hG : 0 < st.G)
    (hne : prof (.galaxy true) ≠ []) (hc : ∀ c ∈ prof (.galaxy true), CovOk c)
    (hpos : ∀ s < cat.nsource, ∀ it < cat.niter, 0 < cat.val s band it ∧
      ∀ c ∈ prof (.galaxy true), 0 < c.A (cat.val s "sersic" it) (cat.val s "rhalf" it)) :
    ∃ out st', combinedRhalf argsort prof dflt cat active nsample step st nx ny band band = some (out, st') ∧
      out.length = (nsample + step - 1) / step ∧
      (∀ k : Nat, step * k < nsample → ∃ (R : ℝ) (im : List ℝ), out[k]? = some (some R) ∧
        im.length = nx * ny ∧ (∀ a b : Nat, a < nx → b < ny → im[a * ny + b]? = some (sceneValue (prof (.galaxy true)) st
          ((List.range cat.nsource).map fun s =>
            (⟨cat.val s "ra" (cat.niter - nsample + step * k), cat.val s "dec" (cat.niter - nsample + step * k),
              cat.val s "q" (cat.niter - nsample + step * k), cat.val s "pa" (cat.niter - nsample + step * k),
              cat.val s "sersic" (cat.niter - nsample + step * k), cat.val s "rhalf" (cat.niter - nsample + step * k),
              cat.val s band (cat.niter - nsample + step * k)⟩ : Gal)) a b)) ∧
        IsHalf (grid nx ny) im R) ∧
      (0 < nsample → st'.psf = [⟨1, (0, 0), ⟨1, 0, 0, 1⟩⟩]) := by
  have hrange : pyRange ((cat.niter : Int) - nsample) cat.niter step =
      (List.range ((nsample + step - 1) / step)).map fun k => ((cat.niter - nsample + step * k : Nat) : Int) := by
    rw [pyRange]
    have : ((cat.niter : Int) - (cat.niter - nsample)).toNat = nsample := by omega
    rw [this]
    apply List.map_congr_left
    intro k _
    push_cast [Nat.cast_sub hns]
    ring
  have hlast : ∀ k, k < (nsample + step - 1) / step → step * k < nsample := by
    intro k hk
    have h1 : step * (k + 1) ≤ nsample + step - 1 :=
      le_trans (Nat.mul_le_mul_left _ hk) (Nat.mul_div_le _ _)
    rw [Nat.mul_add, Nat.mul_one] at h1
    omega
  have hlast' : ∀ k, step * k < nsample → k < (nsample + step - 1) / step := by
    intro k hk
    rw [Nat.lt_iff_add_one_le, Nat.le_div_iff_mul_le hstep, Nat.add_mul, Nat.one_mul, Nat.mul_comm]
    omega
  have hone : ∀ it < cat.niter, ∃ (R : ℝ) (im : List ℝ), (match Chain.getSampleCat cat (it : Int) active with
      | none => none
      | some t => (slowModel prof dflt none st nx ny band band (rowsOf t)).map fun im =>
          halfLight argsort (grid nx ny) im.1) = some (some R) ∧ im.length = nx * ny ∧
      (∀ a b : Nat, a < nx → b < ny → im[a * ny + b]? = some (sceneValue (prof (.galaxy true)) st
        ((List.range cat.nsource).map (galAt cat band it)) a b)) ∧ IsHalf (grid nx ny) im R := by
    intro it hit
    obtain ⟨t, ht, htn, htr, htv⟩ : ∃ t, Chain.getSampleCat cat (it : Int) active = some t ∧ t.names = active.names ∧
        t.nrow = cat.nsource ∧ ∀ s n, n ∈ cat.names → t.at_ s n = cat.val s n it := by
      rw [Chain.getSampleCat, if_neg (by simpa using hrows), if_pos]
      · have : Chain.samplePos cat.nsource cat.niter (it : Int) = some it := by
          rw [Chain.samplePos, Chain.pyIndex, if_pos (by omega), if_pos (by omega)]
          simp
        rw [this]
        exact ⟨_, rfl, rfl, hrows, fun s n hn => if_pos hn⟩
      · rw [List.any_eq_true]
        exact ⟨"ra", (hcols "ra" (by simp)).1, by simpa using (hcols "ra" (by simp)).2⟩
    have hval : ∀ s n, n ∈ ["ra", "dec", "q", "pa", "sersic", "rhalf", band] →
        CatRow.get (t.names.map fun n => (n, t.at_ s n)) n = .ok (cat.val s n it) := by
      intro s n hn
      rw [get_row t s n (htn ▸ (hcols n hn).1), htv s n (hcols n hn).2]
    have hreads : List.Forall₂ (Reads band) (rowsOf t) ((List.range cat.nsource).map (galAt cat band it)) := by
      rw [rowsOf, htr, List.forall₂_map_left_iff, List.forall₂_map_right_iff, List.forall₂_same]
      intro s _
      exact ⟨hval s _ (by simp), hval s _ (by simp), hval s _ (by simp), hval s _ (by simp), hval s _ (by simp),
        hval s _ (by simp), hval s _ (by simp)⟩
    obtain ⟨im, st', h1, h2, h3, -⟩ := C137_image prof dflt st nx ny band hne hc _ _ hreads
    have hpx : ∀ a b : Nat, 0 < sceneValue (prof (.galaxy true)) st ((List.range cat.nsource).map (galAt cat band it)) a b := by
      intro a b
      apply List.sum_pos
      · intro v hv
        obtain ⟨g, hg, rfl⟩ := List.mem_map.mp hv
        obtain ⟨s, hs, rfl⟩ := List.mem_map.mp hg
        obtain ⟨p1, p2⟩ := hpos s (List.mem_range.mp hs) it hit
        exact expected_pos st _ hne hc _ _ p2 hG _ p1 _ _ _ _ _ _
      · intro h
        rw [List.map_eq_nil_iff, List.map_eq_nil_iff, List.range_eq_nil] at h
        omega
    have hall : ∀ f ∈ im, 0 < f := by
      intro f hf
      obtain ⟨i, hi⟩ := List.mem_iff_getElem?.mp hf
      have hil : i < nx * ny := by
        rw [← h2]
        exact (List.getElem?_eq_some_iff.mp hi).1
      have hdiv : i / ny < nx := Nat.div_lt_of_lt_mul (by rw [Nat.mul_comm]; exact hil)
      have := h3 (i / ny) (i % ny) hdiv (Nat.mod_lt _ hny)
      rw [Nat.div_add_mod' i ny, hi, Option.some.injEq] at this
      rw [this]
      exact hpx _ _
    have hF : 0 < im.sum := List.sum_pos _ hall (by
      intro h
      rw [h, List.length_nil] at h2
      have := Nat.mul_pos hnx hny
      omega)
    obtain ⟨R, hR, hhalf⟩ := C137_half argsort hsort (grid nx ny) im (by rw [Slow.Render.grid_length, h2])
      (fun f hf => (hall f hf).le) hF
    refine ⟨R, im, ?_, h2, h3, hhalf⟩
    rw [ht]
    dsimp only
    rw [h1, Option.map_some, hR]
  choose! R im hr1 hr2 hr3 hr4 using hone
  refine ⟨(List.range ((nsample + step - 1) / step)).map fun k => some (R (cat.niter - nsample + step * k)),
    if pyRange ((cat.niter : Int) - nsample) cat.niter step = [] then st else setPsf st none, ?_, by simp, ?_, ?_⟩
  · rw [combinedRhalf, if_neg hstep.ne']
    dsimp only
    rw [hrange, List.map_map, allSome_map _ (fun k => some (R (cat.niter - nsample + step * k)))]
    · rfl
    · intro k hk
      have hk' := hlast k (List.mem_range.mp hk)
      exact hr1 _ (by omega)
  · intro k hk
    have hit : cat.niter - nsample + step * k < cat.niter := by omega
    refine ⟨R (cat.niter - nsample + step * k), im (cat.niter - nsample + step * k), ?_, hr2 _ hit, ?_, hr4 _ hit⟩
    · rw [List.getElem?_map, List.getElem?_range (hlast' k hk)]
      rfl
    · exact hr3 _ hit
  · intro h
    rw [if_neg]
    · rfl
    · rw [hrange]
      intro h0
      rw [List.map_eq_nil_iff, List.range_eq_nil] at h0
      have := hlast' 0 (by simpa using h)
      omega

/-- One gaussian as a profile. -/
noncomputable def wProf (_ : Cls) : List Prof := [⟨⟨4, 0, 0, 4⟩, fun _ _ => 1, fun _ _ => 0, fun _ _ => 0⟩]

/-- Two sources, ten iterations. -/
noncomputable def wCat : Chain.ChainCat ℝ where
  nsource := 2
  niter := 10
  index := fun s => s
  names := ["F090W", "ra", "dec", "q", "pa", "sersic", "rhalf"]
  val := fun s n it => if n = "ra" ∨ n = "dec" then s else it + 1

/-- The sources that were fitted. -/
noncomputable def wActive : Chain.Table ℝ where
  nrow := 2
  index := fun s => s
  names := ["id", "F090W", "ra", "dec", "q", "pa", "sersic", "rhalf"]
  at_ := fun _ _ => 0

/-- A stamp with its own, wide, PSF. -/
def wStamp : Stamp :=
  { D := ⟨1, 0, 0, 1⟩, CW := ⟨1, 0, 0, 1⟩, crpix := (3, 3), crval := (0, 0), G := 1, psf := [⟨1, (0, 0), ⟨9, 0, 0, 9⟩⟩],
    arcsec := false, pixels := [] }

/-- C137, a case: of the last seven of ten iterations every fifth is used, two in all. -/
theorem C137_witness : ∃ (out : List (Option ℝ)) (st' : Stamp) (R₀ R₁ : ℝ), combinedRhalf someSort wProf (fun _ => 0) wCat wActive
    7 5 wStamp 8 8 "F090W" "F090W" = some (out, st') ∧ out = [some R₀, some R₁] ∧
    wStamp.psf = [⟨1, (0, 0), ⟨9, 0, 0, 9⟩⟩] ∧ st'.psf = [⟨1, (0, 0), ⟨1, 0, 0, 1⟩⟩] := by
  obtain ⟨out, st', h1, h2, h3, h4⟩ := C137_chain someSort someSort_ok wProf (fun _ => 0) wCat wActive 7 5 wStamp 8 8
    "F090W" rfl (by simp [wCat]) (by simp [wActive, wCat]) (by simp [wCat]) (by omega) (by omega) (by omega)
    (by simp [wStamp]) (by simp [wProf]) (by
      intro c hc
      simp only [wProf, List.mem_singleton] at hc
      subst hc
      simp [CovOk])
    (by
      intro s _ it _
      refine ⟨?_, ?_⟩
      · have : (0 : ℝ) ≤ it := Nat.cast_nonneg it
        simp only [wCat, String.reduceEq, or_self, if_false]
        linarith
      · intro c hc
        simp only [wProf, List.mem_singleton] at hc
        subst hc
        exact zero_lt_one)
  obtain ⟨R₀, -, e0, -⟩ := h3 0 (by omega)
  obtain ⟨R₁, -, e1, -⟩ := h3 1 (by omega)
  refine ⟨out, st', R₀, R₁, h1, ?_, rfl, h4 (by omega)⟩
  apply List.ext_getElem?
  intro i
  match i with
  | 0 => exact e0
  | 1 => exact e1
  | i + 2 => rw [List.getElem?_eq_none (by rw [h2]; omega)]; rfl

end Forcepho.Postprocess.HalfLight
