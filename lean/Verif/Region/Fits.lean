import Verif.Region.Search
import Verif.Patch.Meta

/-!
# C106, C107: exposures and pixels of patches made from FITS files

Model of `FITSPatch.find_exposures` and `find_pixels` (forcepho/patches/pixel_patch.py:386-485) and of
`DirectPatch` (508-551), and their properties.
-/

set_option autoImplicit false
set_option linter.unusedSectionVars false

namespace Forcepho.Region

section Model
variable {K : Type} [Field K] [LinearOrder K]

/-- What is read of one FITS file: its path, the header keys `FILTER`, `NAXIS1`, `NAXIS2` and the
astrometric solution. -/
structure FitsFile (K : Type) where
  path : String
  band : String
  naxis1 : Nat
  naxis2 : Nat
  wcs : Wcs K

/-- The rough check for coverage (pixel_patch.py:420-428): a corner of the region's box is strictly
inside the image, or the box reaches beyond the image on all sides. -/
def roughCoverage (reg : Reg K) (f : FitsFile K) : Bool :=
  let b := reg.box.map f.wcs.toPix
  let inim := b.any fun p => decide (0 < p.1) && decide (p.1 < (f.naxis1 : K)) &&
    decide (0 < p.2) && decide (p.2 < (f.naxis2 : K))
  let around := decide ((f.naxis1 : K) < hi (b.map Prod.fst)) && decide (lo (b.map Prod.fst) < 0) &&
    decide ((f.naxis2 : K) < hi (b.map Prod.snd)) && decide (lo (b.map Prod.snd) < 0)
  inim || around

/-- Whether a file of the right band is kept (pixel_patch.py:416-429): always without a region or
without the check. -/
def fitsKeeps (reg : Option (Reg K)) (doCheck : Bool) (f : FitsFile K) : Bool :=
  match reg with
  | none => true
  | some r => !doCheck || roughCoverage r f

/-- `FITSPatch.find_exposures` (pixel_patch.py:386-436). -/
def fitsFindExposures (files : List (FitsFile K)) (reg : Option (Reg K)) (bandlist : List String)
    (doCheck : Bool) : List (FitsFile K) :=
  bandlist.flatMap fun band => files.filter fun f => decide (f.band = band) &&
    fitsKeeps reg doCheck f

/-- `band_ids` of `PixelPatch.build_patch` (pixel_patch.py:106). -/
def bandIds (allbands : List String) (bands : List String) : List Nat :=
  bands.map fun b => allbands.idxOf b

/-- A floating point number as far as `find_pixels` is concerned. -/
inductive Num (K : Type) where
  | fin (x : K)
  | inf (positive : Bool)
  | nan
  deriving DecidableEq

/-- `a / x` for a positive number `a`.  The sign of zero is not modelled: either infinity is treated
in the same way below. -/
def Num.divInto (a : K) : Num K → Num K
  | .fin x => if x = 0 then .inf true else .fin (a / x)
  | .inf _ => .fin 0
  | .nan => .nan

/-- Where the uncertainties come from (pixel_patch.py:442-447): the attribute `snr`, the attribute
`unc`, or the uncertainty image. -/
inductive Noise (K : Type) where
  | snr (s : K)
  | unc (u : K)
  | image (err : Nat → Nat → Num K)

/-- The inverse uncertainty of a pixel. -/
def Noise.ie (noise : Noise K) (flux : Nat → Nat → Num K) (i j : Nat) : Num K :=
  match noise with
  | .snr s => (flux i j).divInto s
  | .unc u => .fin (1 / u)
  | .image err => (err i j).divInto 1

/-- Bad pixels get zero flux and zero weight (pixel_patch.py:449-451). -/
def clean (flux ie : Num K) : K × K :=
  match flux, ie with
  | .fin f, .fin w => if w < 0 then (0, 0) else (f, w)
  | _, _ => (0, 0)

/-- The corners of pixel `(i, j)` (pixel_patch.py:461-464). -/
def fitsCorners (i j : Nat) : List (K × K) :=
  [(0, 0), (1, 0), (1, 1), (0, 1)].map fun o : Nat × Nat => (((o.1 + i : Nat) : K), ((o.2 + j : Nat) : K))

/-- `region.contains` on the pixel grid, row-major (pixel_patch.py:457-465).  Without a region all
pixels are taken. -/
def fitsSelected (reg : Option (Reg K)) (w : Wcs K) (nx ny : Nat) : List (Nat × Nat) :=
  ((List.range nx).flatMap fun i => (List.range ny).map fun j => (i, j)).filter fun ij =>
    match reg with
    | none => true
    | some r => (fitsCorners ij.1 ij.2).any (r.corner w)

/-- `FITSPatch.find_pixels` (pixel_patch.py:438-485); `flux i j` is the transposed image. -/
def fitsFindPixels (reg : Option (Reg K)) (w : Wcs K) (nx ny warp : Nat) (flux : Nat → Nat → Num K)
    (noise : Noise K) : List (Patch.Pixel K) :=
  Patch.fitsPadded warp ((fitsSelected reg w nx ny).map fun ij =>
    let v := clean (flux ij.1 ij.2) (noise.ie flux ij.1 ij.2)
    { flux := v.1, ierr := v.2, x := (ij.1 : K), y := (ij.2 : K) })

/-- The attributes a `DirectPatch` has after construction (pixel_patch.py:507-531 and the constructors
it calls are not asked for any other name ending in `_dict`). -/
def directAttributes : List String := ["pixel_dict", "header_dict", "snr", "unc"]

/-- `DirectPatch.find_exposures` (pixel_patch.py:533-546): the names are read from the attribute
`wcs_dict`; `none` is the `AttributeError` or `KeyError`. -/
def directFindExposures (attributes : List String) (wcsDict headerDict : List (String × String)) :
    Option (List (String × String)) :=
  if "wcs_dict" ∈ attributes then
    (wcsDict.map Prod.fst).mapM fun e => (headerDict.lookup e).map fun band => (e, band)
  else none

end Model

/-! ## C106: exposures -/

section
variable {K : Type} [Field K] [LinearOrder K]

/-- C106. What is listed: exactly the files of a requested band for which there is no region, no check,
a corner of the region's box strictly inside the image, or a box that reaches beyond the image on all
four sides. -/
theorem C106_listed (files : List (FitsFile K)) (reg : Option (Reg K)) (bandlist : List String)
    (doCheck : Bool) (f : FitsFile K) (hbox : ∀ r, reg = some r → r.box ≠ []) :
    f ∈ fitsFindExposures files reg bandlist doCheck ↔ f ∈ files ∧ f.band ∈ bandlist ∧
      ∀ r, reg = some r → doCheck = true →
        (∃ q ∈ r.box, 0 < (f.wcs.toPix q).1 ∧ (f.wcs.toPix q).1 < f.naxis1 ∧
          0 < (f.wcs.toPix q).2 ∧ (f.wcs.toPix q).2 < f.naxis2) ∨
        ((∃ q ∈ r.box, (f.naxis1 : K) < (f.wcs.toPix q).1) ∧ (∃ q ∈ r.box, (f.wcs.toPix q).1 < 0) ∧
         (∃ q ∈ r.box, (f.naxis2 : K) < (f.wcs.toPix q).2) ∧ ∃ q ∈ r.box, (f.wcs.toPix q).2 < 0) := by
  have hhi : ∀ (l : List K) (c : K), l ≠ [] → (c < hi l ↔ ∃ x ∈ l, c < x) := by
    intro l c hl
    constructor
    · intro h; exact ⟨_, hi_mem hl, h⟩
    · rintro ⟨x, hx, h⟩; exact lt_of_lt_of_le h (le_hi hx)
  have hlo : ∀ (l : List K) (c : K), l ≠ [] → (lo l < c ↔ ∃ x ∈ l, x < c) := by
    intro l c hl
    constructor
    · intro h; exact ⟨_, lo_mem hl, h⟩
    · rintro ⟨x, hx, h⟩; exact lt_of_le_of_lt (lo_le hx) h
  unfold fitsFindExposures
  simp only [List.mem_flatMap, List.mem_filter, Bool.and_eq_true, decide_eq_true_eq]
  constructor
  · rintro ⟨b, hb, hf, rfl, hc⟩
    refine ⟨hf, hb, ?_⟩
    rintro r rfl rfl
    have hne : ∀ g : K × K → K, ((r.box.map f.wcs.toPix).map g) ≠ [] := by
      intro g; simpa using hbox r rfl
    simp only [fitsKeeps, Bool.not_true, Bool.false_or, roughCoverage, Bool.or_eq_true, List.any_eq_true,
      Bool.and_eq_true, decide_eq_true_eq, hhi _ _ (hne _), hlo _ _ (hne _), List.mem_map,
      exists_exists_and_eq_and] at hc
    rcases hc with ⟨q, hq, h⟩ | h
    · exact Or.inl ⟨q, hq, h.1.1.1, h.1.1.2, h.1.2, h.2⟩
    · exact Or.inr ⟨h.1.1.1, h.1.1.2, h.1.2, h.2⟩
  · rintro ⟨hf, hb, hc⟩
    refine ⟨f.band, hb, hf, rfl, ?_⟩
    cases reg with
    | none => rfl
    | some r =>
      cases doCheck with
      | false => rfl
      | true =>
        have hne : ∀ g : K × K → K, ((r.box.map f.wcs.toPix).map g) ≠ [] := by
          intro g; simpa using hbox r rfl
        simp only [fitsKeeps, Bool.not_true, Bool.false_or, roughCoverage, Bool.or_eq_true, List.any_eq_true,
          Bool.and_eq_true, decide_eq_true_eq, hhi _ _ (hne _), hlo _ _ (hne _), List.mem_map,
          exists_exists_and_eq_and]
        rcases hc r rfl rfl with ⟨q, hq, h⟩ | h
        · exact Or.inl ⟨q, hq, ⟨⟨h.1, h.2.1⟩, h.2.2.1⟩, h.2.2.2⟩
        · exact Or.inr ⟨⟨⟨h.1, h.2.1⟩, h.2.2.1⟩, h.2.2.2⟩

/-- C106, sufficiency (partial). When the box of the region is aligned with the pixels and no larger
than the image, every image that overlaps the box is listed.  Missing: larger boxes (refuted below)
and rotated ones. -/
theorem C106_complete_partial [IsStrictOrderedRing K] (files : List (FitsFile K)) (r : Reg K)
    (bandlist : List String) (f : FitsFile K)
    (hf : f ∈ files) (hb : f.band ∈ bandlist) (x0 x1 y0 y1 : K)
    (hbox : ∀ x ∈ [x0, x1], ∀ y ∈ [y0, y1], ∃ q ∈ r.box, f.wcs.toPix q = (x, y))
    (hw : x1 - x0 ≤ f.naxis1) (hh : y1 - y0 ≤ f.naxis2)
    (hx : x0 < f.naxis1 ∧ 0 < x1 ∧ x0 < x1) (hy : y0 < f.naxis2 ∧ 0 < y1 ∧ y0 < y1)
    (hstrict : ¬ (x0 = 0 ∧ x1 = f.naxis1) ∧ ¬ (y0 = 0 ∧ y1 = f.naxis2)) :
    f ∈ fitsFindExposures files (some r) bandlist true := by
  obtain ⟨q0, hq0, _⟩ := hbox x0 (by simp) y0 (by simp)
  have hne : r.box ≠ [] := List.ne_nil_of_mem hq0
  rw [C106_listed files (some r) bandlist true f (by rintro r' h; obtain rfl := Option.some.inj h; exact hne)]
  refine ⟨hf, hb, ?_⟩
  intro r' h _
  obtain rfl := Option.some.inj h
  left
  have pick : ∀ (a b N : K), b - a ≤ N → a < N → 0 < b → ¬ (a = 0 ∧ b = N) →
      ∃ z ∈ [a, b], 0 < z ∧ z < N := by
    intro a b N h1 h2 h3 h4
    rcases lt_trichotomy a 0 with ha | ha | ha
    · exact ⟨b, by simp, h3, by linarith⟩
    · subst ha
      refine ⟨b, by simp, h3, ?_⟩
      rw [sub_zero] at h1
      exact lt_of_le_of_ne h1 fun h => h4 ⟨rfl, h⟩
    · exact ⟨a, by simp, ha, h2⟩
  obtain ⟨x, hxm, hx1, hx2⟩ := pick x0 x1 f.naxis1 hw hx.1 hx.2.1 hstrict.1
  obtain ⟨y, hym, hy1, hy2⟩ := pick y0 y1 f.naxis2 hh hy.1 hy.2.1 hstrict.2
  obtain ⟨q, hq, he⟩ := hbox x hxm y hym
  exact ⟨q, hq, by rw [he]; exact hx1, by rw [he]; exact hx2, by rw [he]; exact hy1, by rw [he]; exact hy2⟩

/-- C106, order. The exposures come out sorted by band, so the assertion of `build_patch` holds, and
inside a band in the order of the files. -/
theorem C106_sorted (files : List (FitsFile K)) (reg : Option (Reg K)) (allbands : List String)
    (doCheck : Bool) (hn : allbands.Nodup) :
    (bandIds allbands ((fitsFindExposures files reg allbands doCheck).map FitsFile.band)).Pairwise (· ≤ ·) ∧
    ∀ b, ((fitsFindExposures files reg allbands doCheck).filter fun f => decide (f.band = b)).Sublist files := by
  constructor
  · unfold bandIds fitsFindExposures
    rw [List.map_map, List.pairwise_map]
    have key : ∀ (l : List String), l.Pairwise (fun a b => allbands.idxOf a ≤ allbands.idxOf b) →
        (l.flatMap fun band => files.filter fun f => decide (f.band = band) &&
          fitsKeeps reg doCheck f).Pairwise fun a b : FitsFile K =>
            ((fun b => allbands.idxOf b) ∘ FitsFile.band) a ≤ ((fun b => allbands.idxOf b) ∘ FitsFile.band) b := by
      intro l hl
      rw [List.pairwise_flatMap]
      refine ⟨?_, ?_⟩
      · intro b _
        refine List.Pairwise.imp_of_mem (R := fun _ _ => True) ?_ (List.pairwise_of_forall fun _ _ => trivial)
        intro f g hf hg _
        have h1 := (List.mem_filter.mp hf).2
        have h2 := (List.mem_filter.mp hg).2
        simp only [Bool.and_eq_true, decide_eq_true_eq] at h1 h2
        simp only [Function.comp_apply, h1.1, h2.1, le_refl]
      · refine hl.imp ?_
        intro b c hbc f hf g hg
        have h1 := (List.mem_filter.mp hf).2
        have h2 := (List.mem_filter.mp hg).2
        simp only [Bool.and_eq_true, decide_eq_true_eq] at h1 h2
        simp only [Function.comp_apply, h1.1, h2.1]
        exact hbc
    apply key
    rw [List.pairwise_iff_getElem]
    intro i j hi hj hij
    rw [hn.idxOf_getElem i hi, hn.idxOf_getElem j hj]
    exact hij.le
  · intro b
    unfold fitsFindExposures
    rw [List.filter_flatMap]
    have h0 : ∀ l : List String, b ∉ l → (l.flatMap fun band => (files.filter fun f => decide (f.band = band) &&
        fitsKeeps reg doCheck f).filter fun f => decide (f.band = b)) = [] := by
      intro l hl
      rw [List.flatMap_eq_nil_iff]
      intro c hc
      rw [List.filter_eq_nil_iff]
      intro f hf
      have := (List.mem_filter.mp hf).2
      simp only [Bool.and_eq_true, decide_eq_true_eq] at this
      rw [this.1]
      simp only [decide_eq_true_eq]
      rintro rfl
      exact hl hc
    by_cases hb : b ∈ allbands
    · obtain ⟨pre, post, e⟩ := List.append_of_mem hb
      rw [e] at hn ⊢
      have hn' := List.nodup_append.mp hn
      have h1 : b ∉ pre := fun h => hn'.2.2 b h b (by simp) rfl
      have h2 : b ∉ post := (List.nodup_cons.mp hn'.2.1).1
      rw [List.flatMap_append, List.flatMap_cons, h0 pre h1, h0 post h2, List.nil_append, List.append_nil]
      exact List.filter_sublist.trans List.filter_sublist
    · rw [h0 _ hb]; exact List.nil_sublist _

end

/-- One image of 8 by 8 pixels whose pixels are sky positions. -/
def exFits : FitsFile ℚ := ⟨"e", "b", 8, 8, idWcs⟩

/-- C106 refuted: a region that crosses the image from side to side is missed although it contains
pixels of the image, while one that contains the whole image is found. -/
theorem C106_refuted :
    fitsFindExposures [exFits] (some (rectangle (-1) 20 1 5)) ["b"] true = [] ∧
    (fitsSelected (some (rectangle (-1) 20 1 5)) idWcs 8 8).length = 32 ∧
    (fitsFindExposures [exFits] (some (rectangle (-1) 20 (-1) 20)) ["b"] true).length = 1 := by
  refine ⟨?_, ?_, ?_⟩ <;> decide +kernel

/-- C106: patches from dictionaries never get as far as listing exposures, since the attribute they
read is not set by the constructor; once it is set they list every named exposure with its band. -/
theorem C106_direct (wcsDict headerDict : List (String × String)) :
    directFindExposures directAttributes wcsDict headerDict = none ∧
    (∀ a ∈ ["pixel_dict", "header_dict", "snr", "unc"], a ∈ directAttributes) ∧
    ∀ attributes, "wcs_dict" ∈ attributes → (∀ e ∈ wcsDict.map Prod.fst, ∃ b, headerDict.lookup e = some b) →
      ∃ l, directFindExposures attributes wcsDict headerDict = some l ∧ l.map Prod.fst = wcsDict.map Prod.fst ∧
        ∀ p ∈ l, headerDict.lookup p.1 = some p.2 := by
  refine ⟨?_, by decide, ?_⟩
  · unfold directFindExposures directAttributes
    rw [if_neg (by decide)]
  · intro attributes ha hall
    unfold directFindExposures
    rw [if_pos ha]
    generalize wcsDict.map Prod.fst = names at hall
    induction names with
    | nil => exact ⟨[], rfl, rfl, by simp⟩
    | cons e es ih =>
      obtain ⟨l, h1, h2, h3⟩ := ih fun x hx => hall x (List.mem_cons_of_mem _ hx)
      obtain ⟨b, hb⟩ := hall e (by simp)
      refine ⟨(e, b) :: l, ?_, by simp [h2], ?_⟩
      · rw [List.mapM_cons, hb, h1]; rfl
      · intro p hp
        rcases List.mem_cons.mp hp with rfl | hp
        · exact hb
        · exact h3 p hp

/-! ## C107: pixels -/

section
variable {K : Type} [Field K] [LinearOrder K]

/-- C107, values. A pixel enters with its flux and the inverse of its uncertainty when the flux is a
number and the uncertainty a positive number, and without weight in all other cases; weights are never
negative. -/
theorem C107_values [IsStrictOrderedRing K] (flux err : Nat → Nat → Num K) (i j : Nat) :
    (∀ f e, flux i j = .fin f → err i j = .fin e → 0 < e →
      clean (flux i j) ((Noise.image err).ie flux i j) = (f, 1 / e)) ∧
    ((¬ ∃ f e, flux i j = .fin f ∧ err i j = .fin e ∧ 0 < e) →
      (clean (flux i j) ((Noise.image err).ie flux i j)).2 = 0) ∧
    ∀ noise : Noise K, 0 ≤ (clean (flux i j) (noise.ie flux i j)).2 := by
  refine ⟨?_, ?_, ?_⟩
  · intro f e hf he hpos
    simp only [Noise.ie, hf, he, Num.divInto, if_neg hpos.ne', clean]
    rw [if_neg (not_lt.mpr (div_pos one_pos hpos).le)]
  · intro h
    simp only [Noise.ie]
    cases hf : flux i j with
    | inf s => simp [clean]
    | nan => simp [clean]
    | fin f =>
      cases he : err i j with
      | nan => simp [Num.divInto, clean]
      | inf s => simp [Num.divInto, clean]
      | fin e =>
        by_cases h0 : e = 0
        · simp [Num.divInto, h0, clean]
        · have hle : ¬ 0 < e := fun hp => h ⟨f, e, hf, he, hp⟩
          have hneg : 1 / e < 0 := div_neg_of_pos_of_neg one_pos (lt_of_le_of_ne (not_lt.mp hle) h0)
          simp only [Num.divInto, if_neg h0, clean, if_pos hneg]
  · intro noise
    unfold clean
    split
    · split
      · exact le_refl _
      · rename_i h; exact not_lt.mp h
    · exact le_refl _

/-- C107, fixed uncertainty and fixed signal to noise. With a fixed uncertainty every pixel with a
number has that uncertainty; with a fixed signal to noise every positive pixel has it, and every other
pixel is dropped. -/
theorem C107_fixed [IsStrictOrderedRing K] (flux : Nat → Nat → Num K) (i j : Nat) :
    (∀ u f, 0 < u → flux i j = .fin f → clean (flux i j) ((Noise.unc u).ie flux i j) = (f, 1 / u)) ∧
    (∀ s f, 0 < s → flux i j = .fin f → 0 < f →
      (clean (flux i j) ((Noise.snr s).ie flux i j)).1 = f ∧
      f * (clean (flux i j) ((Noise.snr s).ie flux i j)).2 = s) ∧
    ∀ s, 0 < s → (∀ f, flux i j = .fin f → f ≤ 0) →
      clean (flux i j) ((Noise.snr s).ie flux i j) = (0, 0) := by
  refine ⟨?_, ?_, ?_⟩
  · intro u f hu hf
    simp only [Noise.ie, hf, clean]
    rw [if_neg (not_lt.mpr (div_pos one_pos hu).le)]
  · intro s f hs hf hpos
    simp only [Noise.ie, hf, Num.divInto, if_neg hpos.ne', clean]
    rw [if_neg (not_lt.mpr (div_pos hs hpos).le)]
    exact ⟨rfl, mul_div_cancel₀ _ hpos.ne'⟩
  · intro s hs h
    cases hf : flux i j with
    | inf b => simp [clean]
    | nan => simp [clean]
    | fin f =>
      simp only [Noise.ie, hf, Num.divInto]
      by_cases h0 : f = 0
      · simp [h0, clean]
      · have hneg : s / f < 0 := div_neg_of_pos_of_neg hs (lt_of_le_of_ne (h f hf) h0)
        simp only [if_neg h0, clean, if_pos hneg]

/-- C107, selection. The pixels handed out are, each once, those with at least one of the corners
`(i, j)`, `(i+1, j)`, `(i+1, j+1)`, `(i, j+1)` in the region, with their own coordinates, flux and
weight, followed by fewer than one warp of weightless pixels outside the image. -/
theorem C107_selection (reg : Reg K) (w : Wcs K) (nx ny warp : Nat) (hwarp : 0 < warp)
    (flux : Nat → Nat → Num K) (noise : Noise K) :
    ∃ (sel : List (Nat × Nat)) (pad : List (Patch.Pixel K)),
      fitsFindPixels (some reg) w nx ny warp flux noise =
        sel.map (fun ij => ⟨(clean (flux ij.1 ij.2) (noise.ie flux ij.1 ij.2)).1,
          (clean (flux ij.1 ij.2) (noise.ie flux ij.1 ij.2)).2, (ij.1 : K), (ij.2 : K)⟩) ++ pad ∧
      sel.Nodup ∧
      (∀ i j, (i, j) ∈ sel ↔ i < nx ∧ j < ny ∧ ∃ a ≤ 1, ∃ b ≤ 1,
        reg.corner w (((i + a : Nat) : K), ((j + b : Nat) : K)) = true) ∧
      pad.length < warp ∧ (sel.length + pad.length) % warp = 0 ∧
      ∀ p ∈ pad, p.ierr = 0 ∧ p.flux = 0 ∧ p.x = -1 ∧ p.y = -1 := by
  obtain ⟨h1, pad, h2, h3, h4⟩ := Patch.C43_fits warp hwarp
    ((fitsSelected (some reg) w nx ny).map fun ij => (⟨(clean (flux ij.1 ij.2) (noise.ie flux ij.1 ij.2)).1,
          (clean (flux ij.1 ij.2) (noise.ie flux ij.1 ij.2)).2, (ij.1 : K), (ij.2 : K)⟩ : Patch.Pixel K))
  refine ⟨fitsSelected (some reg) w nx ny, pad, h2, ?_, ?_, h3, ?_, h4⟩
  · unfold fitsSelected
    apply List.Nodup.filter
    rw [List.nodup_flatMap]
    constructor
    · intro i _
      exact List.Nodup.map (fun a b h => (Prod.mk.inj h).2) List.nodup_range
    · apply List.Pairwise.imp _ List.nodup_range
      intro a b hab
      simp only [Function.onFun, List.disjoint_left]
      intro p hp hp'
      obtain ⟨_, _, rfl⟩ := List.mem_map.mp hp
      obtain ⟨_, _, h⟩ := List.mem_map.mp hp'
      exact hab (Prod.mk.inj h).1.symm
  · intro i j
    unfold fitsSelected
    simp only [List.mem_filter, List.mem_flatMap, List.mem_range, List.mem_map, Prod.mk.injEq,
      List.any_eq_true, fitsCorners, List.mem_map]
    constructor
    · rintro ⟨⟨i', hi, j', hj, rfl, rfl⟩, p, ⟨o, ho, rfl⟩, hc⟩
      refine ⟨hi, hj, o.1, ?_, o.2, ?_, by rw [Nat.add_comm i', Nat.add_comm j']; exact hc⟩
      · simp at ho; rcases ho with rfl | rfl | rfl | rfl <;> decide
      · simp at ho; rcases ho with rfl | rfl | rfl | rfl <;> decide
    · rintro ⟨hi, hj, a, ha, b, hb, hc⟩
      refine ⟨⟨i, hi, j, hj, rfl, rfl⟩, _, ⟨(a, b), ?_, rfl⟩, by
        rw [Nat.add_comm a, Nat.add_comm b]; exact hc⟩
      interval_cases a <;> interval_cases b <;> simp
  · rw [h2] at h1
    simpa using h1

/-- C107, no region: all pixels, in row-major order. -/
theorem C107_all (w : Wcs K) (nx ny : Nat) :
    fitsSelected (none : Option (Reg K)) w nx ny =
      (List.range nx).flatMap fun i => (List.range ny).map fun j => (i, j) := by
  unfold fitsSelected
  simp

end

/-- C107, corners refuted: pixel centres have whole coordinates, so pixel `(0, 0)` reaches from -1/2 to
1/2; a region around its corner `(-1/2, -1/2)` does not select it, and one that only touches the area
beyond 1/2 does. -/
theorem C107_corner_refuted :
    (∃ r : Reg ℚ, r.corner idWcs (-1/2, -1/2) = true ∧ (0, 0) ∉ fitsSelected (some r) idWcs 4 4) ∧
    (∃ r : Reg ℚ, (∀ x y, x ≤ 1/2 → r.corner idWcs (x, y) = false) ∧
      (0, 0) ∈ fitsSelected (some r) idWcs 4 4) := by
  refine ⟨⟨rectangle (-3/5) (-2/5) (-3/5) (-2/5), by decide +kernel, by decide +kernel⟩,
    ⟨rectangle (3/4) 2 (-1) 1, ?_, by decide +kernel⟩⟩
  intro x y hx
  simp only [rectangle, idWcs, id]
  have : ¬ (3/4 : ℚ) < x := by
    push Not
    exact hx.trans (by norm_num)
  simp [this]

/-- Cases for C106 and C107. -/
example : (fitsFindExposures [exFits] (some (rectangle (-1) 5 (-1) 5)) ["a", "b"] true).length = 1 ∧
    (fitsSelected (some (rectangle (-1) 2 (-1) 2)) idWcs 8 8) = [(0, 0), (0, 1), (1, 0), (1, 1)] ∧
    (["a", "b"] : List String).Nodup := by
  decide +kernel

end Forcepho.Region
