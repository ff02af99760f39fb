import Verif.Device.Model

/-!
# Bytes shared between Python and the compiled kernels

Python fills numpy arrays and structures, and hands their addresses to code compiled from
`src/patch.cc`, `src/proposal.cu`, `src/compute_gaussians_kernel.cc` and `.cu`, which reads the same bytes
through its own declarations.  Here both sides are functions on one memory of bytes.

Simplifications.
* A little-endian machine with 64-bit pointers, 32-bit `int`, and natural alignment.
* A floating point number is its bit pattern, a natural number below 2^32 or 2^64.
* On the GPU the copies have the same bytes as the arrays they are copied from (PyCUDA `to_device`), so the
  addresses below are those of the copies.
* Index arithmetic of the kernels is that of the integers (`int` does not overflow below 2^31).
-/

set_option autoImplicit false

namespace Forcepho.Layout

open Device (Name)

/-! ## Memory -/

/-- A byte. -/
abbrev Byte := Fin 256
/-- The memory: a byte at every address. -/
abbrev Mem := Nat → Byte

/-- The `n` bytes from address `a` on. -/
def load (m : Mem) (a n : Nat) : List Byte := (List.range n).map fun i => m (a + i)

/-- Memory after writing bytes from address `a` on. -/
def store (m : Mem) (a : Nat) (bs : List Byte) : Mem := fun x =>
  if a ≤ x then (bs[x - a]?).getD (m x) else m x

/-- Little-endian bytes of a number, `n` of them. -/
def toLE : Nat → Nat → List Byte
  | 0, _ => []
  | n + 1, v => ⟨v % 256, Nat.mod_lt _ (by decide)⟩ :: toLE n (v / 256)

/-- The number with these little-endian bytes. -/
def ofLE : List Byte → Nat
  | [] => 0
  | b :: l => b.val + 256 * ofLE l

/-- Two's complement bytes of an integer, `n` of them: numpy keeps the low bytes of an integer that does not fit. -/
def toInt (n : Nat) (v : Int) : List Byte := toLE n (v % (256 ^ n : Nat)).toNat

/-- The integer with these two's complement bytes. -/
def ofInt (l : List Byte) : Int :=
  if 2 * ofLE l < 256 ^ l.length then (ofLE l : Int) else (ofLE l : Int) - (256 ^ l.length : Nat)

/-! ## The layout of structures -/

/-- The numpy types used in structures and arrays. -/
inductive Np
  | uintp | int16 | int32 | float32 | float64
  deriving DecidableEq, Repr

/-- Bytes of a numpy scalar; also its alignment. -/
def Np.size : Np → Nat
  | .uintp => 8
  | .int16 => 2
  | .int32 => 4
  | .float32 => 4
  | .float64 => 8

/-- The C types of members. -/
inductive CTy
  | ptr (target : String) | int16 | int | float | double
  deriving DecidableEq, Repr

/-- Bytes of a C scalar; also its alignment. -/
def CTy.size : CTy → Nat
  | .ptr _ => 8
  | .int16 => 2
  | .int => 4
  | .float => 4
  | .double => 8

/-- A member of a structure: a name, a type, and the number of elements of an array member. -/
structure Member (ν τ : Type) where
  name : ν
  ty : τ
  count : Nat := 1

/-- The least multiple of `a` that is at least `n`. -/
def roundUp (n a : Nat) : Nat := (n + a - 1) / a * a

/-- Offsets of `np.dtype([...], align=aligned)`, from offset `n` on (numpy `_convert_from_array_descr`): fields are
placed one after the other, with padding to the alignment of the field if `aligned`. -/
def npOffsets {ν : Type} (aligned : Bool) : Nat → List (Member ν Np) → List (ν × Nat)
  | _, [] => []
  | n, f :: l =>
    let o := if aligned then roundUp n f.ty.size else n
    (f.name, o) :: npOffsets aligned (o + f.count * f.ty.size) l

/-- Where the last field ends. -/
def npEnd {ν : Type} (aligned : Bool) : Nat → List (Member ν Np) → Nat
  | n, [] => n
  | n, f :: l => npEnd aligned ((if aligned then roundUp n f.ty.size else n) + f.count * f.ty.size) l

/-- `itemsize` of the dtype: padded to the largest alignment if `aligned`. -/
def npItemsize {ν : Type} (aligned : Bool) (l : List (Member ν Np)) : Nat :=
  if aligned then roundUp (npEnd aligned 0 l) ((l.map (·.ty.size)).foldr max 1) else npEnd aligned 0 l

/-- The offset of member number `i` of a C structure: the first is at zero, every other one at the first multiple
of its alignment after its predecessor. -/
def cOffsetAt {ν : Type} (l : List (Member ν CTy)) : Nat → Nat
  | 0 => 0
  | i + 1 =>
    match l[i]?, l[i + 1]? with
    | some f, some g => roundUp (cOffsetAt l i + f.count * f.ty.size) g.ty.size
    | _, _ => 0

/-- The offset of the member called `x`. -/
def cOffset {ν : Type} [DecidableEq ν] (l : List (Member ν CTy)) (x : ν) : Nat :=
  cOffsetAt l (l.findIdx fun f => f.name = x)

/-- `sizeof` of a C structure. -/
def cSizeof {ν : Type} (l : List (Member ν CTy)) : Nat :=
  match l[l.length - 1]? with
  | none => 1
  | some f => roundUp (cOffsetAt l (l.length - 1) + f.count * f.ty.size) ((l.map (·.ty.size)).foldr max 1)

/-! ## The declarations on both sides -/

/-- `PatchBase.pdt` (patches/patch.py:43-72). -/
def npPatch : List (Member Name Np) :=
  [{ name := .data, ty := .uintp }, { name := .ierr, ty := .uintp }, { name := .xpix, ty := .uintp },
   { name := .ypix, ty := .uintp }, { name := .residual, ty := .uintp },
   { name := .exposure_start, ty := .uintp }, { name := .exposure_N, ty := .uintp },
   { name := .band_start, ty := .uintp }, { name := .band_N, ty := .uintp },
   { name := .n_sources, ty := .int32 }, { name := .n_radii, ty := .int32 },
   { name := .rad2, ty := .uintp },
   { name := .D, ty := .uintp }, { name := .crpix, ty := .uintp }, { name := .crval, ty := .uintp },
   { name := .CW, ty := .uintp }, { name := .G, ty := .uintp },
   { name := .n_psf_per_source, ty := .uintp }, { name := .psfgauss, ty := .uintp },
   { name := .psfgauss_start, ty := .uintp }]

/-- `class Patch` (src/patch.cc:23-100). -/
def cPatch : List (Member Name CTy) :=
  [{ name := .data, ty := .ptr "float" }, { name := .ierr, ty := .ptr "float" },
   { name := .xpix, ty := .ptr "float" }, { name := .ypix, ty := .ptr "float" },
   { name := .residual, ty := .ptr "float" },
   { name := .exposure_start, ty := .ptr "int" }, { name := .exposure_N, ty := .ptr "int" },
   { name := .band_start, ty := .ptr "int16_t" }, { name := .band_N, ty := .ptr "int16_t" },
   { name := .n_sources, ty := .int }, { name := .n_radii, ty := .int },
   { name := .rad2, ty := .ptr "float" },
   { name := .D, ty := .ptr "float" }, { name := .crpix, ty := .ptr "float" },
   { name := .crval, ty := .ptr "float" }, { name := .CW, ty := .ptr "float" },
   { name := .G, ty := .ptr "float" },
   { name := .n_psf_per_source, ty := .ptr "int" }, { name := .psfgauss, ty := .ptr "PSFSourceGaussian" },
   { name := .psfgauss_start, ty := .ptr "int" }]

/-- Fields of a source in a proposal. -/
inductive SrcField
  | ra | dec | q | pa | nsersic | rh | fluxes | mixture_amplitudes | damplitude_drh | damplitude_dnsersic
  deriving DecidableEq, Repr

/-- `MAXBANDS` (src/kernel_limits.h:5). -/
def maxBands : Nat := 30
/-- `MAXRADII` (src/kernel_limits.h:26). -/
def maxRadii : Nat := 10
/-- `MAXSOURCES` (src/kernel_limits.h:8). -/
def maxSources : Nat := 30
/-- `NPARAMS` (src/kernel_limits.h:11). -/
def nParams : Nat := 7

/-- `source_struct_dtype` (proposal.py:230-240). -/
def npSource : List (Member SrcField Np) :=
  [{ name := .ra, ty := .float32 }, { name := .dec, ty := .float32 }, { name := .q, ty := .float32 },
   { name := .pa, ty := .float32 }, { name := .nsersic, ty := .float32 }, { name := .rh, ty := .float32 },
   { name := .fluxes, ty := .float32, count := maxBands },
   { name := .mixture_amplitudes, ty := .float32, count := maxRadii },
   { name := .damplitude_drh, ty := .float32, count := maxRadii },
   { name := .damplitude_dnsersic, ty := .float32, count := maxRadii }]

/-- `class Source` (src/proposal.cu:13-27). -/
def cSource : List (Member SrcField CTy) :=
  [{ name := .ra, ty := .float }, { name := .dec, ty := .float }, { name := .q, ty := .float },
   { name := .pa, ty := .float }, { name := .nsersic, ty := .float }, { name := .rh, ty := .float },
   { name := .fluxes, ty := .float, count := maxBands },
   { name := .mixture_amplitudes, ty := .float, count := maxRadii },
   { name := .damplitude_drh, ty := .float, count := maxRadii },
   { name := .damplitude_dnsersic, ty := .float, count := maxRadii }]

/-- Fields of a gaussian of the PSF; the last is `sersic_bin` in Python and `sersic_radius_bin` in C. -/
inductive PsfField
  | amp | xcen | ycen | Cxx | Cyy | Cxy | bin
  deriving DecidableEq, Repr

/-- The dtype of `psfgauss` (patches/patch.py:372-374, patches/storage.py:35), without alignment; `met` is the
`meta_dtype` of the patch. -/
def npPsf (met : Np) : List (Member PsfField Np) :=
  [{ name := .amp, ty := met }, { name := .xcen, ty := met }, { name := .ycen, ty := met },
   { name := .Cxx, ty := met }, { name := .Cyy, ty := met }, { name := .Cxy, ty := met },
   { name := .bin, ty := .int32 }]

/-- `class PSFSourceGaussian` (src/patch.cc:103-119). -/
def cPsf : List (Member PsfField CTy) :=
  [{ name := .amp, ty := .float }, { name := .xcen, ty := .float }, { name := .ycen, ty := .float },
   { name := .Cxx, ty := .float }, { name := .Cyy, ty := .float }, { name := .Cxy, ty := .float },
   { name := .bin, ty := .int }]

/-- `response_struct_dtype` (proposal.py:243-244). -/
def npResponse : List (Member Unit Np) := [{ name := (), ty := .float32, count := nParams * maxSources }]

/-- `class Response` (src/proposal.cu:33-39). -/
def cResponse : List (Member Unit CTy) := [{ name := (), ty := .float, count := maxSources * nParams }]

/-! ## What Python writes -/

/-- The bytes of a C-contiguous array with entries `v`, in the order of memory (numpy default order). -/
def arrBytes : List Nat → (List Nat → List Byte) → List Byte
  | [], v => v []
  | n :: s, v => (List.range n).flatMap fun i => arrBytes s fun l => v (i :: l)

/-- `x[name] = value` for a record: write the bytes at the offset. -/
def setAt (bs : List Byte) (o : Nat) (v : List Byte) : List Byte := bs.take o ++ v ++ bs.drop (o + v.length)

/-- A record made by `np.zeros(1, dtype)` and assigning the fields one after the other
(patches/device_patch.py:316-330, 503-513). -/
def recordBytes {ν : Type} (aligned : Bool) (l : List (Member ν Np)) (val : ν → List Byte) : List Byte :=
  (npOffsets aligned 0 l).foldl (fun bs p => setAt bs p.2 (val p.1))
    (List.replicate (npItemsize aligned l) 0)

/-- One source of a proposal, as bit patterns. -/
structure Src where
  scalar : SrcField → Nat
  vec : SrcField → Nat → Nat

/-- Whether a field of a source is an array, and its length (proposal.py:230-240). -/
def vecLen : SrcField → Option Nat
  | .fluxes => some maxBands
  | .mixture_amplitudes => some maxRadii
  | .damplitude_drh => some maxRadii
  | .damplitude_dnsersic => some maxRadii
  | _ => none

/-- The bytes of one field of a source. -/
def srcField (s : Src) (f : SrcField) : List Byte :=
  match vecLen f with
  | some n => arrBytes [n] fun i => toLE 4 (s.vec f (i.headD 0))
  | none => toLE 4 (s.scalar f)

/-- `Scene.get_proposal` (sources.py:80-97): one record per active source. -/
def proposalBytes (l : List Src) : List Byte := l.flatMap fun s => recordBytes true npSource (srcField s)

/-- The attributes of a patch that the kernels see, with floating point numbers as bit patterns
(patches/patch.py:142-191, 300-396, patches/pixel_patch.py:117-185). -/
structure Attrs where
  npix : Nat
  nBands : Nat
  nExp : Nat
  nSrc : Nat
  nRad : Nat
  nGauss : Nat
  pix : Name → Nat → Nat
  expo : Name → Nat → Int
  band : Name → Nat → Int
  rad2 : Nat → Nat
  mat : Name → Nat → Nat → Nat → Nat → Nat
  vec : Name → Nat → Nat → Nat → Nat
  G : Nat → Nat
  nPsf : Nat → Int
  psf : Nat → PsfField → Nat
  bin : Nat → Int
  psfStart : Nat → Int

/-- The bytes of one array attribute.  `pix` and `met` are `pix_dtype` and `meta_dtype`
(patches/patch.py:79-87). -/
def attrBytes (pix met : Np) (P : Attrs) : Name → List Byte
  | .data => arrBytes [P.npix] fun i => toLE pix.size (P.pix .data (i.headD 0))
  | .ierr => arrBytes [P.npix] fun i => toLE pix.size (P.pix .ierr (i.headD 0))
  | .xpix => arrBytes [P.npix] fun i => toLE pix.size (P.pix .xpix (i.headD 0))
  | .ypix => arrBytes [P.npix] fun i => toLE pix.size (P.pix .ypix (i.headD 0))
  | .residual => arrBytes [P.npix] fun i => toLE pix.size (P.pix .residual (i.headD 0))
  | .exposure_start => arrBytes [P.nExp] fun i => toInt Np.int32.size (P.expo .exposure_start (i.headD 0))
  | .exposure_N => arrBytes [P.nExp] fun i => toInt Np.int32.size (P.expo .exposure_N (i.headD 0))
  | .band_start => arrBytes [P.nBands] fun i => toInt Np.int16.size (P.band .band_start (i.headD 0))
  | .band_N => arrBytes [P.nBands] fun i => toInt Np.int16.size (P.band .band_N (i.headD 0))
  | .n_sources => toInt 4 P.nSrc
  | .n_radii => toInt 4 P.nRad
  | .rad2 => arrBytes [P.nRad] fun i => toLE met.size (P.rad2 (i.headD 0))
  | .D => arrBytes [P.nExp, P.nSrc, 2, 2] fun i =>
      toLE met.size (P.mat .D (i.getD 0 0) (i.getD 1 0) (i.getD 2 0) (i.getD 3 0))
  | .CW => arrBytes [P.nExp, P.nSrc, 2, 2] fun i =>
      toLE met.size (P.mat .CW (i.getD 0 0) (i.getD 1 0) (i.getD 2 0) (i.getD 3 0))
  | .crpix => arrBytes [P.nExp, P.nSrc, 2] fun i =>
      toLE met.size (P.vec .crpix (i.getD 0 0) (i.getD 1 0) (i.getD 2 0))
  | .crval => arrBytes [P.nExp, P.nSrc, 2] fun i =>
      toLE met.size (P.vec .crval (i.getD 0 0) (i.getD 1 0) (i.getD 2 0))
  | .G => arrBytes [P.nExp] fun i => toLE met.size (P.G (i.headD 0))
  | .n_psf_per_source => arrBytes [P.nBands] fun i => toInt Np.int32.size (P.nPsf (i.headD 0))
  | .psfgauss => arrBytes [P.nGauss] fun i =>
      recordBytes false (npPsf met) fun f =>
        if f = .bin then toInt 4 (P.bin (i.headD 0)) else toLE met.size (P.psf (i.headD 0) f)
  | .psfgauss_start => arrBytes [P.nExp] fun i => toInt Np.int32.size (P.psfStart (i.headD 0))

/-- The patch structure (patches/device_patch.py:309-330, 495-513): pointers for arrays, values for the two counts.
`addr` is the dictionary of pointers; a name without a pointer keeps the zero of `np.zeros`, which happens for the
residual on a GPU. -/
def structBytes (addr : Name → Option Nat) (pix met : Np) (P : Attrs) : List Byte :=
  recordBytes true npPatch fun n =>
    if Device.isPtr n then toLE 8 ((addr n).getD 0) else attrBytes pix met P n

/-! ## What the kernels read -/

/-- A pointer as the compiled code reads it: eight bytes, the lowest first (the members of forcepho/src/patch.cc). -/
def rdPtr (m : Mem) (a : Nat) : Nat := ofLE (load m a 8)
/-- An `int`: four bytes, two's complement. -/
def rdInt (m : Mem) (a : Nat) : Int := ofInt (load m a 4)
/-- An `int16_t`: two bytes. -/
def rdInt16 (m : Mem) (a : Nat) : Int := ofInt (load m a 2)
/-- The bits of a `float`: four bytes. -/
def rdFloat (m : Mem) (a : Nat) : Nat := ofLE (load m a 4)

/-- The address of element `i` of an array with elements of `w` bytes. -/
def elem (base w : Nat) (i : Int) : Nat := ((base : Int) + w * i).toNat

/-- `patch->x`, for the pointer `x`; `p` is the address of the structure. -/
def kPtr (m : Mem) (p : Nat) (x : Name) : Nat := rdPtr m (p + cOffset cPatch x)

/-- `patch->n_sources` and `patch->n_radii`. -/
def kCount (m : Mem) (p : Nat) (x : Name) : Int := rdInt m (p + cOffset cPatch x)

/-- `patch->xpix[pix]` and the like (compute_gaussians_kernel.cc:275-278, .cu:266-269). -/
def kPix (m : Mem) (p : Nat) (x : Name) (pix : Int) : Nat := rdFloat m (elem (kPtr m p x) 4 pix)

/-- `patch->exposure_N[exposure]`, `patch->psfgauss_start[exposure]` and the like, arrays of `int`. -/
def kInt (m : Mem) (p : Nat) (x : Name) (i : Int) : Int := rdInt m (elem (kPtr m p x) 4 i)

/-- `patch->band_N[band]` and `patch->band_start[band]`, arrays of `int16_t`. -/
def kBand (m : Mem) (p : Nat) (x : Name) (band : Int) : Int := rdInt16 m (elem (kPtr m p x) 2 band)

/-- `patch->G[exposure]`, `patch->rad2[s]`. -/
def kFloat (m : Mem) (p : Nat) (x : Name) (i : Int) : Nat := rdFloat m (elem (kPtr m p x) 4 i)

/-- `crpix` and `crval` of a source (compute_gaussians_kernel.cc:61-64, .cu:82-84): component `k`. -/
def kVec (m : Mem) (p : Nat) (x : Name) (exposure g k : Int) : Nat :=
  rdFloat m (elem (kPtr m p x) 4 (2 * (kCount m p .n_sources * exposure + g) + k))

/-- `matrix22(patch->D+d_cw_start)` and `CW` (compute_gaussians_kernel.cc:60, 73, 91, .cu:85, 94, 112,
matrix22.cc:49-51): `v11, v12, v21, v22`. -/
def kMat (m : Mem) (p : Nat) (x : Name) (exposure g : Int) : Nat × Nat × Nat × Nat :=
  let start := 4 * (kCount m p .n_sources * exposure + g)
  let d := fun i : Int => rdFloat m (elem (elem (kPtr m p x) 4 start) 4 i)
  (d 0, d 1, d 2, d 3)

/-- `(patch->psfgauss + i)->field` (compute_gaussians_kernel.cc:100, .cu:77). -/
def kPsf (m : Mem) (p : Nat) (i : Int) (f : PsfField) : Nat :=
  rdFloat m (elem (kPtr m p .psfgauss) (cSizeof cPsf) i + cOffset cPsf f)

/-- `(patch->psfgauss + i)->sersic_radius_bin` (compute_gaussians_kernel.cc:104, .cu:117). -/
def kBin (m : Mem) (p : Nat) (i : Int) : Int :=
  rdInt m (elem (kPtr m p .psfgauss) (cSizeof cPsf) i + cOffset cPsf .bin)

/-- `(sources+g)->field` (compute_gaussians_kernel.cc:50, 66-67). -/
def kSrc (m : Mem) (q : Nat) (g : Int) (f : SrcField) : Nat :=
  rdFloat m (elem q (cSizeof cSource) g + cOffset cSource f)

/-- `(sources+g)->field[i]` (compute_gaussians_kernel.cc:109, .cu:122). -/
def kSrcVec (m : Mem) (q : Nat) (g : Int) (f : SrcField) (i : Int) : Nat :=
  rdFloat m (elem (elem q (cSizeof cSource) g + cOffset cSource f) 4 i)

/-! ## What the kernels write and Python reads -/

/-- `patch->residual[pix] = residual` (compute_gaussians_kernel.cc:282-283, .cu:273-274): nothing for a null
pointer. -/
def kResidual (m : Mem) (p : Nat) (pix : Int) (v : Nat) : Mem :=
  if kPtr m p .residual = 0 then m else store m (elem (kPtr m p .residual) 4 pix) (toLE 4 v)

/-- `r[band].dchi2_dparam[j] = ...` (compute_gaussians_kernel.cu:181-183, 309-310), for the buffer at `r`. -/
def kDeriv (m : Mem) (r : Nat) (band j : Int) (v : Nat) : Mem :=
  store m (elem (elem r (cSizeof cResponse) band) 4 j) (toLE 4 v)

/-- `pdchi2_dp[gal*NPARAMS + j] = ...` (compute_gaussians_kernel.cc:302), for the array at `r`, which Python sees
reshaped to `(MAXSOURCES, NPARAMS)` (proposal.py:214). -/
def kDerivCpu (m : Mem) (r : Nat) (gal j : Int) (v : Nat) : Mem :=
  store m (elem r 4 (gal * (nParams : Nat) + j)) (toLE 4 v)

/-- `*((double *) pchi2 + band) = chi2` (compute_gaussians_kernel.cu:181, 310), for the buffer at `c`. -/
def kChi2 (m : Mem) (c : Nat) (band : Int) (v : Nat) : Mem := store m (elem c 8 band) (toLE 8 v)

/-- The address of an entry of a C-contiguous array: numpy's strides. -/
def npAddress (item : Nat) : List Nat → List Nat → Nat
  | _ :: s, i :: l => i * (item * s.prod) + npAddress item s l
  | _, _ => 0

/-- An entry of a numpy array of items of `item` bytes, as Python sees it. -/
def npEntry (m : Mem) (base item : Nat) (shape idx : List Nat) : Nat :=
  ofLE (load m (base + npAddress item shape idx) item)

end Forcepho.Layout
