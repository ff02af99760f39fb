import Mathlib.Algebra.Order.Field.Basic
import Mathlib.Data.List.Basic

/-! # Packing pixels, PSFs and astrometry into patches (forcepho/patches)

Arrays are lists, indices natural numbers, floating point an ordered field.  The fixed-width integer
types of the index arrays (`int16` for exposure numbers, `int32` for pixel numbers) are idealised to
natural numbers. -/

set_option autoImplicit false

namespace Forcepho.Patch

/-- Python exceptions raised here. -/
inductive Err where
  | assertionError
  | valueError
  | indexError
deriving DecidableEq

/-! ## numpy helpers -/

/-- `np.cumsum`, starting from an accumulated value. -/
def cumsumFrom (a : Nat) : List Nat → List Nat
  | [] => []
  | n :: ns => (a + n) :: cumsumFrom (a + n) ns

/-- `np.cumsum`. -/
def cumsum (l : List Nat) : List Nat := cumsumFrom 0 l

/-- The pieces of `np.split(arr, idx)` from position `lo` on. -/
def splitFrom {α : Type} (arr : List α) (lo : Nat) : List Nat → List (List α)
  | [] => [arr.drop lo]
  | i :: is => ((arr.take i).drop lo) :: splitFrom arr i is

/-- `np.split(arr, idx)` with a list of indices. -/
def npSplit {α : Type} (arr : List α) (idx : List Nat) : List (List α) := splitFrom arr 0 idx

/-- `np.diff` of an index array. -/
def diff : List Nat → List Nat
  | a :: b :: l => (b - a) :: diff (b :: l)
  | _ => []

/-! ## Grouping exposures by band -/

/-- `allbands.index(b)` (pixel_patch.py:106); `ValueError` if the band is unknown. -/
def bandIds {β : Type} [DecidableEq β] (allbands bands : List β) : Except Err (List Nat) :=
  bands.mapM fun b => if b ∈ allbands then .ok (allbands.idxOf b) else .error .valueError

/-- `(np.diff(band_ids) >= 0).all()` (pixel_patch.py:107). -/
def nonDecreasing : List Nat → Bool
  | a :: b :: l => decide (a ≤ b) && nonDecreasing (b :: l)
  | _ => true

/-- The distinct values of `np.unique(ids)` in increasing order, for ids below `n`. -/
def uniq (n : Nat) (ids : List Nat) : List Nat := (List.range n).filter fun i => decide (i ∈ ids)

/-- The band bookkeeping of `PixelPatch.build_patch` (pixel_patch.py:105-114). -/
structure Bands (β : Type) where
  /-- `self.bandlist` -/
  bandlist : List β
  /-- `self.n_exp_per_band` -/
  nExpPerBand : List Nat

/-- pixel_patch.py:105-110. -/
def groupBands {β : Type} [DecidableEq β] (allbands bands : List β) : Except Err (Bands β) :=
  match bandIds allbands bands with
  | .error e => .error e
  | .ok ids =>
    if nonDecreasing ids then
      let u := uniq allbands.length ids
      .ok { bandlist := u.filterMap fun i => allbands[i]?
            nExpPerBand := u.map fun i => ids.count i }
    else .error .assertionError

/-! ## Packing pixels -/

/-- The arrays returned by `find_pixels` for one exposure.  Each is a list of rows (super-pixels),
flattened by the packing; an exposure with one-dimensional arrays has one row. -/
structure PixDat (K : Type) where
  flux : List (List K)
  ierr : List (List K)
  xpix : List (List K)
  ypix : List (List K)

/-- The packed arrays (pixel_patch.py:131-139). -/
structure Packed (K : Type) where
  data : List K
  ierr : List K
  xpix : List K
  ypix : List K
  bandStart : List Nat
  bandN : List Nat
  bandNPix : List Nat
  exposureStart : List Nat
  exposureN : List Nat

/-- The variables of the packing loop (pixel_patch.py:157-187). -/
structure Loop (K : Type) where
  b : Nat
  i : Nat
  bandN : List Nat
  exposureStart : List Nat
  exposureN : List Nat
  data : List (List K)
  ierr : List (List K)
  xpix : List (List K)
  ypix : List (List K)

section
variable {K : Type} [Field K]

/-- Element-wise `pixdat[0] - self.background_offsets[e]` (pixel_patch.py:173-176); no offset when
no background tweak was asked for. -/
def tweak (offset : Option K) (flux : List (List K)) : List (List K) :=
  match offset with
  | some o => flux.map fun r => r.map fun v => v - o
  | none => flux

/-- One pass of the packing loop (pixel_patch.py:163-187); `prev` is the band of the previous
exposure. -/
def packStep {β : Type} [DecidableEq β] (st : Loop K) (prev : Option β) (band : β)
    (offset : Option K) (p : PixDat K) : Except Err (Loop K) :=
  let nPix := p.flux.flatten.length
  if nPix = 0 then .error .assertionError
  else
    let b := if prev.isSome && decide (prev ≠ some band) then st.b + 1 else st.b
    if st.bandN.length ≤ b then .error .indexError
    else .ok
      { b := b
        i := st.i + nPix
        bandN := st.bandN.modify b (· + 1)
        exposureStart := st.exposureStart ++ [st.i]
        exposureN := st.exposureN ++ [nPix]
        data := st.data ++ tweak offset p.flux
        ierr := st.ierr ++ p.ierr
        xpix := st.xpix ++ p.xpix
        ypix := st.ypix ++ p.ypix }

/-- The packing loop. -/
def packLoop {β : Type} [DecidableEq β] (st : Loop K) (prev : Option β) :
    List (β × Option K × PixDat K) → Except Err (Loop K)
  | [] => .ok st
  | (band, offset, p) :: l =>
    match packStep st prev band offset p with
    | .error e => .error e
    | .ok st' => packLoop st' (some band) l

/-- `PixelPatch.pack_pix` (pixel_patch.py:124-202) before the signal to noise cap: `exps` lists the
band, the background offset and the pixels of each exposure. -/
def packPix {β : Type} [DecidableEq β] (nBands : Nat) (exps : List (β × Option K × PixDat K)) :
    Except Err (Packed K) :=
  let st0 : Loop K :=
    { b := 0, i := 0, bandN := List.replicate nBands 0, exposureStart := [], exposureN := [],
      data := [], ierr := [], xpix := [], ypix := [] }
  match packLoop st0 none exps with
  | .error e => .error e
  | .ok st =>
    let data := st.data.flatten
    if data.length = st.i then
      let xpix := st.xpix.flatten
      let bandStart := 0 :: (cumsum st.bandN).dropLast
      let first := diff (bandStart.map fun b => st.exposureStart.getD b 0)
      .ok { data := data
            ierr := st.ierr.flatten
            xpix := xpix
            ypix := st.ypix.flatten
            bandStart := bandStart
            bandN := st.bandN
            bandNPix := first ++ [xpix.length - first.sum]
            exposureStart := st.exposureStart
            exposureN := st.exposureN }
    else .error .assertionError

/-- `PixelPatch.build_patch` (pixel_patch.py:94-117): no exposures raises `ValueError`, then the
bands are grouped and the pixels packed. -/
def buildPatch {β : Type} [DecidableEq β] (allbands : List β)
    (exps : List (β × Option K × PixDat K)) : Except Err (Bands β × Packed K) :=
  if exps.length = 0 then .error .valueError
  else
    match groupBands allbands (exps.map (·.1)) with
    | .error e => .error e
    | .ok g =>
      match packPix g.bandlist.length exps with
      | .error e => .error e
      | .ok p => .ok (g, p)

end

/-- `Patch.split_pix` (patch.py:469-480). -/
def splitPix {α : Type} (arr : List α) (exposureN : List Nat) : List (List α) :=
  npSplit arr (cumsum exposureN.dropLast)

/-- `Patch.split_band` (patch.py:482-499). -/
def splitBand {α : Type} (arr : List α) (bandNPix : List Nat) : List (List α) :=
  npSplit arr (cumsum bandNPix.dropLast)

/-- `reshape((h, w))` of a flat array in C order. -/
def reshape {α : Type} (h w : Nat) (l : List α) : Except Err (List (List α)) :=
  if l.length = h * w then
    .ok ((List.range h).map fun r => (l.drop (r * w)).take w)
  else .error .valueError

/-- `ProposerBase.unpack_residuals` (proposal.py:38-52) without reshaping. -/
def unpackResiduals {α : Type} (flat : List α) (exposureN : List Nat) : List (List α) :=
  npSplit flat (cumsum exposureN).dropLast

/-- `ProposerBase.unpack_residuals(reshape=True)` (proposal.py:47-50): padding removed and the stamp
shape restored; `shapes` holds `original_shapes`, with `original_sizes` their products. -/
def unpackReshaped {α : Type} (flat : List α) (exposureN : List Nat) (shapes : List (Nat × Nat)) :
    Except Err (List (List (List α))) :=
  ((unpackResiduals flat exposureN).zip shapes).mapM fun (r, s) =>
    reshape s.1 s.2 (r.take (s.1 * s.2))

/-! ## Padding -/

/-- One pixel of a patch. -/
structure Pixel (K : Type) where
  flux : K
  ierr : K
  x : K
  y : K

/-- Number of pixels appended by `FITSPatch.find_pixels` (pixel_patch.py:475-477). -/
def fitsPad (warp n : Nat) : Nat := if warp - n % warp ≠ warp then warp - n % warp else 0

/-- The padding of `FITSPatch.find_pixels` (pixel_patch.py:475-485): no weight, coordinates -1. -/
def fitsPadded {K : Type} [Field K] (warp : Nat) (l : List (Pixel K)) : List (Pixel K) :=
  l ++ List.replicate (fitsPad warp l.length) { flux := 0, ierr := 0, x := -1, y := -1 }

/-- Number of pixels appended by `StaticPatch.pack_pix` (static_patch.py:266, 293). -/
def staticPad (n : Nat) : Nat := (32 - n % 32) % 32

/-- One exposure as packed by `StaticPatch.pack_pix` (static_patch.py:270-302): arrays of zeros
overwritten by the stamp. -/
def staticPadded {K : Type} [Field K] (l : List (Pixel K)) : List (Pixel K) :=
  l ++ List.replicate (staticPad l.length) { flux := 0, ierr := 0, x := 0, y := 0 }

/-- `total_padded_size` (static_patch.py:267). -/
def totalPaddedSize (sizes : List Nat) : Nat := (sizes.map fun n => (n + 32 - 1) / 32 * 32).sum

/-- `StaticPatch.pack_pix` (static_patch.py:256-304) for the pixels of the stamps: the packed
pixels, `exposure_start` and `exposure_N`; the final assertion checks the total. -/
def staticPackPix {K : Type} [Field K] (stamps : List (List (Pixel K))) :
    Except Err (List (Pixel K) × List Nat × List Nat) :=
  let exposureN := stamps.map fun s => s.length + staticPad s.length
  if exposureN.sum = totalPaddedSize (stamps.map List.length) then
    .ok ((stamps.map staticPadded).flatten, 0 :: (cumsum exposureN).dropLast, exposureN)
  else .error .assertionError

/-! ## Signal to noise cap -/

/-- `PixelPatch._cap_snr` (pixel_patch.py:204-207) for one pixel; `none` is the default cap, zero
is falsy. -/
def capSnr {K : Type} [Field K] [LinearOrder K] (cap : Option K) (flux ierr : K) : K :=
  match cap with
  | none => ierr
  | some m => if m = 0 then ierr else if 0 < ierr ∧ m < flux * ierr then m / flux else ierr

/-! ## PSF packing -/

/-- `self.psfgauss[s:(s+N)] = params` on an array of `total` entries of which the first `s` are
filled (patch.py:394); a slice shorter than the parameters raises `ValueError`. -/
def putPsf {γ : Type} (total : Nat) (acc ps : List γ) : Except Err (List γ) :=
  if total < acc.length + ps.length ∧ ps.length ≠ 1 then .error .valueError
  else if total < acc.length + ps.length then .ok acc
  else .ok (acc ++ ps)

/-- The inner loop over sources (patch.py:389-395). -/
def packSources {γ : Type} (total : Nat) : List γ × Nat → List (List γ) → Except Err (List γ × Nat)
  | st, [] => .ok st
  | (acc, s), ps :: l =>
    match putPsf total acc ps with
    | .error e => .error e
    | .ok acc' => packSources total (acc', s + ps.length) l

/-- The outer loop over exposures (patch.py:387-395): also collects `psfgauss_start`. -/
def packExposures {γ : Type} (total : Nat) :
    List γ × Nat → List Nat → List (List (List γ)) → Except Err ((List γ × Nat) × List Nat)
  | st, starts, [] => .ok (st, starts)
  | (acc, s), starts, e :: l =>
    match packSources total (acc, s) e with
    | .error err => .error err
    | .ok st' => packExposures total st' (starts ++ [s]) l

/-- `Patch._pack_psf` (patch.py:357-396).  `psfs` holds, for each exposure and each source of the
scene, the parameters the PSF store returned; `nPsf` and `nExp` are the numbers per band, `nSources`
is the packed number of sources.  Returns the gaussians and `psfgauss_start`. -/
def packPsf {γ : Type} (nPsf nExp : List Nat) (nSources : Nat) (psfs : List (List (List γ))) :
    Except Err (List γ × List Nat) :=
  let total := ((nPsf.zip nExp).map fun p => p.1 * p.2 * nSources).sum
  match packExposures total ([], 0) [] psfs with
  | .error e => .error e
  | .ok ((acc, s), starts) => if s = total then .ok (acc, starts) else .error .assertionError

/-- The size of the PSF array of `StaticPatch.pack_psf` (static_patch.py:157). -/
def staticPsfSize (nPsf : List Nat) (nExp nSources : Nat) : Nat := nPsf.sum * nExp * nSources

/-- The start offsets of `StaticPatch.pack_psf` (static_patch.py:160-162). -/
def staticPsfStart (nPsf bandN : List Nat) (nSources : Nat) : List Nat :=
  0 :: ((cumsum ((nPsf.zip bandN).map fun p => List.replicate p.2 p.1).flatten).dropLast.map
    fun c => c * nSources)

/-- The PSF gaussian the kernel uses for component `p` of source `g` in exposure `e`
(compute_gaussians_kernel.cc:54, 100; .cu likewise): the source number does not enter. -/
def kernelPsf {γ : Type} (psfgauss : List γ) (start : List Nat) (e _g p : Nat) : Option γ :=
  psfgauss[start.getD e 0 + p]?

/-! ## Coordinates -/

section
variable {K : Type} [Field K] [LinearOrder K]

/-- `np.median` (used at patch.py:447-448). -/
def median (l : List K) : K :=
  let s := l.mergeSort (fun a b => decide (a ≤ b))
  if s.length % 2 = 1 then s.getD (s.length / 2) 0
  else (s.getD (s.length / 2 - 1) 0 + s.getD (s.length / 2) 0) / 2

/-- Right ascension and declination. -/
structure Sky (K : Type) where
  ra : K
  dec : K
deriving DecidableEq

/-- `Patch.zerocoords` (patch.py:425-457): the shifted sources and the reference coordinates. -/
def zerocoords (skyZero : Option (Sky K)) (scene : List (Sky K)) : List (Sky K) × Sky K :=
  let zero := match skyZero with
    | some z => z
    | none => { ra := median (scene.map (·.ra)), dec := median (scene.map (·.dec)) }
  (scene.map fun s => { ra := s.ra - zero.ra, dec := s.dec - zero.dec }, zero)

/-- `Patch.unzerocoords` (patch.py:461-467). -/
def unzerocoords (zero : Sky K) (scene : List (Sky K)) : List (Sky K) :=
  scene.map fun s => { ra := s.ra + zero.ra, dec := s.dec + zero.dec }

/-- A `2 × 2` matrix in row order. -/
structure M22 (K : Type) where
  v11 : K
  v12 : K
  v21 : K
  v22 : K

/-- The astrometry packed for one source in one exposure. -/
structure Astrom (K : Type) where
  crval : Sky K
  crpix : K × K
  cw : M22 K

/-- `Patch._pack_astrometry` (patch.py:322-338) for one exposure: `wcs` is the sky to pixel map and
`cwAt` the local matrix of `scale_at_sky`. -/
def packAstrometry (ref : Sky K) (wcs : Sky K → K × K) (cwAt : Sky K → M22 K)
    (scene : List (Sky K)) : List (Astrom K) :=
  scene.map fun s =>
    let ssky : Sky K := { ra := s.ra + ref.ra, dec := s.dec + ref.dec }
    { crval := { ra := ssky.ra - ref.ra, dec := ssky.dec - ref.dec }
      crpix := wcs ssky
      cw := cwAt ssky }

/-- The astrometric part of `Patch.pack_meta` (patch.py:242-270): shifts the scene in place, and
packs the astrometry with the new reference. -/
def packMeta (wcs : Sky K → K × K) (cwAt : Sky K → M22 K) (scene : List (Sky K)) :
    List (Sky K) × Sky K × List (Astrom K) :=
  let z := zerocoords none scene
  (z.1, z.2, packAstrometry z.2 wcs cwAt z.1)

/-- The pixel position the kernel gives a source (compute_gaussians_kernel.cc:63-67, 91-95). -/
def kernelPosition (a : Astrom K) (p : Sky K) : K × K :=
  let dra := p.ra - a.crval.ra
  let ddec := p.dec - a.crval.dec
  (a.cw.v11 * dra + a.cw.v12 * ddec + a.crpix.1, a.cw.v21 * dra + a.cw.v22 * ddec + a.crpix.2)

end

end Forcepho.Patch
