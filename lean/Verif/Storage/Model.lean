import Mathlib.Algebra.Order.Field.Basic
import Mathlib.Data.List.Basic

/-! # Pixel, metadata and PSF stores (forcepho/patches/storage.py)

Images are shapes with a function from the two array indices; `none` is a non-finite number.
Floating point is idealised to an ordered field. -/

set_option autoImplicit false

namespace Forcepho.Storage

/-- Python exceptions raised here. -/
inductive Err where
  | assertionError
  | valueError
  | indexError
  | keyError
deriving DecidableEq

/-! ## Super-pixel order -/

/-- `im[I:I+s, J:J+s].flatten()` with `I = ii*s`, `J = jj*s` (storage.py:264-269). -/
def block {α : Type} (s : Nat) (im : Nat → Nat → α) (ii jj : Nat) : List α :=
  ((List.range s).map fun a => (List.range s).map fun b => im (ii * s + a) (jj * s + b)).flatten

/-- `PixelStore.superpixelize` (storage.py:238-270) of an image of shape `(nx, ny)`. -/
def superpixelize {α : Type} (s nx ny : Nat) (im ierr : Nat → Nat → α) : List (List (List α)) :=
  (List.range (nx / s)).map fun ii => (List.range (ny / s)).map fun jj =>
    block s im ii jj ++ block s ierr ii jj

/-- `astype(np.int16)` of a pixel number (storage.py:151-152): unspecified beyond the range. -/
def toInt16 (n : Nat) : Option Nat := if n < 32768 then some n else none

/-- `PixelStore.pixel_coordinates` (storage.py:145-153): the two halves of the super-pixelised
coordinate grids.  `meshgrid` of `arange(ny), arange(nx)` gives `yy[i,j] = j`, `xx[i,j] = i`. -/
def pixelCoordinates (s nx ny : Nat) :
    List (List (List (Option Nat))) × List (List (List (Option Nat))) :=
  let packed := superpixelize s nx ny (fun i _ => i) (fun _ j => j)
  (packed.map fun r => r.map fun p => (p.take (s ^ 2)).map toInt16,
   packed.map fun r => r.map fun p => (p.drop (s ^ 2)).map toInt16)

/-- The offsets of the four corners (storage.py:136). -/
def cornerOffsets (s : Nat) : List (Nat × Nat) :=
  [(0, 0), (1, 0), (1, 1), (0, 1)].map fun o => (o.1 * (s - 1), o.2 * (s - 1))

/-- `PixelStore.superpixel_corners` (storage.py:121-143) for one super-pixel: the first pixel plus
the offsets; `none` where the coordinates are missing. -/
def superpixelCorners (s nx ny ii jj : Nat) : List (Option (Nat × Nat)) :=
  let c := pixelCoordinates s nx ny
  let first (l : List (List (List (Option Nat)))) : Option Nat :=
    (l[ii]?).bind fun r => (r[jj]?).bind fun p => (p[0]?).bind id
  (cornerOffsets s).map fun o =>
    (first c.1).bind fun x => (first c.2).map fun y => (x + o.1, y + o.2)

/-! ## Ingesting an exposure -/

/-- The `mask` member of an image set: absent, boolean, or unsigned integer. -/
inductive Mask where
  | absent
  | bool (m : Nat → Nat → Bool)
  | int (m : Nat → Nat → Nat)

section
variable {K : Type} [Field K] [LinearOrder K]

/-- An `ImageSet` (storage.py:29-30), pixel members only. -/
structure ImSet (K : Type) where
  nx : Nat
  ny : Nat
  im : Nat → Nat → Option K
  ierr : Nat → Nat → Option K
  mask : Mask
  bkg : Option (Nat → Nat → Option K)

/-- Element-wise difference; non-finite if either is. -/
def sub? (a b : Option K) : Option K := a.bind fun x => b.map fun y => x - y

/-- Background subtraction (storage.py:174-179): the image and the background used. -/
def subtractBkg (t : ImSet K) : (Nat → Nat → Option K) × (Nat → Nat → Option K) :=
  match t.bkg with
  | some b => (fun i j => sub? (t.im i j) (b i j), b)
  | none => (t.im, fun _ _ => some 0)

/-- `~(isfinite(ierr) & isfinite(im) & (ierr >= 0))` (storage.py:181). -/
def badPixel (im ierr : Option K) : Bool :=
  !(ierr.isSome && im.isSome && (match ierr with
    | some e => decide (0 ≤ e)
    | none => false))

/-- The combined mask (storage.py:182-187). An integer mask without a bit mask stays an integer
array: `bool | int` is an int. -/
inductive Combined where
  | bools (m : Nat → Nat → Bool)
  | ints (m : Nat → Nat → Nat)

/-- Combination of the pixel test with the given mask; `bitmask = 0` stands for `None` or 0. -/
def combine (bad : Nat → Nat → Bool) (mask : Mask) (bitmask : Nat) : Combined :=
  match mask with
  | .absent => .bools bad
  | .bool m =>
    if bitmask = 0 then .bools fun i j => bad i j || m i j
    else .bools fun i j => bad i j || decide ((m i j).toNat &&& bitmask ≠ 0)
  | .int m =>
    if bitmask = 0 then .ints fun i j => (bad i j).toNat ||| m i j
    else .bools fun i j => bad i j || decide (m i j &&& bitmask ≠ 0)

/-- Rows selected by an integer index array. -/
def hits (nx ny : Nat) (v : Nat → Nat → Nat) (r : Nat) : Bool :=
  (List.range nx).any fun i => (List.range ny).any fun j => v i j == r

/-- Masked assignment (storage.py:188-192): image and inverse error.  Indexing by an integer array
addresses whole rows, and fails beyond the last row. -/
def applyMask (nx ny : Nat) (m : Combined) (im ierr bkg : Nat → Nat → Option K) :
    Except Err ((Nat → Nat → Option K) × (Nat → Nat → Option K)) :=
  match m with
  | .bools b => .ok
      (fun i j => if b i j then (if (bkg i j).isSome then bkg i j else some 0) else im i j,
       fun i j => if b i j then some 0 else ierr i j)
  | .ints v =>
    if (List.range nx).any (fun i => (List.range ny).any fun j => decide (nx ≤ v i j)) then
      .error .indexError
    else .ok
      (fun i j =>
        if hits nx ny (fun a c => v a c &&& (bkg a c).isSome.toNat) i then bkg i j
        else if hits nx ny v i then some 0 else im i j,
       fun i j => if hits nx ny v i then some 0 else ierr i j)

/-- Flux calibration (storage.py:193-201) with the factor of the header, if requested. -/
def calibrate (conv : Option K) (im ierr : Nat → Nat → Option K) :
    (Nat → Nat → Option K) × (Nat → Nat → Option K) :=
  match conv with
  | some c => (fun i j => (im i j).map (· * c), fun i j => (ierr i j).map (· * (1 / c)))
  | none => (im, ierr)

/-- `PixelStore.add_exposure` up to the write (storage.py:168-212): the super-pixels, and the image
set as it is afterwards, because the arrays are changed in place. -/
def ingest (s : Nat) (nside : Nat × Nat) (bitmask : Nat) (conv : Option K) (t : ImSet K) :
    Except Err (List (List (List K)) × ImSet K) :=
  let (im, bkg) := subtractBkg t
  let m := combine (fun i j => badPixel (im i j) (t.ierr i j)) t.mask bitmask
  match applyMask t.nx t.ny m im t.ierr bkg with
  | .error e => .error e
  | .ok (im, ierr) =>
    let (im, ierr) := calibrate conv im ierr
    if ¬ (t.nx % s = 0 ∧ t.ny % s = 0) then .error .assertionError
    else if ¬ (t.nx = nside.1 ∧ t.ny = nside.2) then .error .valueError
    else
      let sp := superpixelize s t.nx t.ny im ierr
      if sp.all fun r => r.all fun p => p.all (·.isSome) then
        .ok (sp.map fun r => r.map fun p => p.map (·.getD 0), { t with im := im, ierr := ierr })
      else .error .assertionError

end

/-! ## The HDF5 file -/

/-- A path: band, then the components of the exposure name (which may contain slashes,
storage.py:49-56). -/
abbrev Path := List String

/-- A node of the file. -/
inductive Node (D : Type) where
  | group
  | data (d : D)

/-- The content of an HDF5 file below the root. -/
abbrev File (D : Type) := Path → Option (Node D)

/-- Is there a dataset strictly above `p`? -/
def blocked {D : Type} (f : File D) (p : Path) : Bool :=
  p.inits.any fun q => decide (q ≠ p) && (match f q with
    | some (.data _) => true
    | _ => false)

/-- `h5.create_group(path)`: creates missing intermediate groups; fails if the path exists or runs
through a dataset. -/
def createGroup {D : Type} (f : File D) (p : Path) : Except Err (File D) :=
  if (f p).isSome then .error .valueError
  else if blocked f p then .error .valueError
  else .ok fun q => if q ≠ [] ∧ q <+: p ∧ (f q).isNone then some .group else f q

/-- `del h5[path]` removes the path and everything below it; `KeyError` if it is missing. -/
def delete {D : Type} (f : File D) (p : Path) : Except Err (File D) :=
  if (f p).isNone then .error .keyError else .ok fun q => if p <+: q then none else f q

/-- `create_dataset("data", ...)` in a group. -/
def putData {D : Type} (f : File D) (p : Path) (d : D) : File D :=
  fun q => if q = p ++ ["data"] then some (.data d) else f q

/-- The write of `PixelStore.add_exposure` (storage.py:215-223). -/
def put {D : Type} (f : File D) (p : Path) (d : D) : Except Err (File D) :=
  match createGroup f p with
  | .ok g => .ok (putData g p d)
  | .error .valueError =>
    match delete f p with
    | .error e => .error e
    | .ok g =>
      match createGroup g p with
      | .error e => .error e
      | .ok g => .ok (putData g p d)
  | .error e => .error e

/-- Reading the data of an exposure. -/
def readData {D : Type} (f : File D) (p : Path) : Option D :=
  match f (p ++ ["data"]) with
  | some (.data d) => some d
  | _ => none

/-- A sequence of additions. -/
def putAll {D : Type} (f : File D) : List (Path × D) → Except Err (File D)
  | [] => .ok f
  | (p, d) :: rest =>
    match put f p d with
    | .error e => .error e
    | .ok g => putAll g rest

/-- `PixelStore.__init__` (storage.py:97-119): the layout of an existing file wins over the
arguments; a file without both attributes gets the arguments.  Returns the layout used and the
attributes on disk. -/
def openStore (nsideAttr spsAttr : Option Nat) (nside sps : Nat) :
    (Nat × Nat) × (Option Nat × Option Nat) :=
  match nsideAttr, spsAttr with
  | some n, some s => ((n, s), (some n, some s))
  | _, _ => ((nside, sps), (some nside, some sps))

/-! ## Metadata -/

/-- A Python dict as an association list in insertion order. -/
abbrev Dict (V : Type) := List (String × V)

/-- `d.get(k)`. -/
def dget {V : Type} (d : Dict V) (k : String) : Option V :=
  match d with
  | [] => none
  | (k', v) :: r => if k' = k then some v else dget r k

/-- `d[k] = v`: an existing key keeps its place. -/
def dset {V : Type} (d : Dict V) (k : String) (v : V) : Dict V :=
  match d with
  | [] => [(k, v)]
  | (k', v') :: r => if k' = k then (k, v) :: r else (k', v') :: dset r k v

/-- `MetaStore.add_exposure` (storage.py:366-370). -/
def addMeta {H : Type} (h : Dict (Dict H)) (band exp : String) (hdr : H) : Dict (Dict H) :=
  let h := if (dget h band).isSome then h else dset h band []
  dset h band (dset ((dget h band).getD []) exp hdr)

/-- A header of the store. -/
def getMeta {H : Type} (h : Dict (Dict H)) (band exp : String) : Option H :=
  (dget h band).bind fun e => dget e exp

/-- `MetaStore.nexp` (storage.py:516-522). -/
def nexp {H : Type} (h : Dict (Dict H)) : Nat :=
  h.foldl (fun n b => n + b.2.length) 0

/-- `MetaStore.write_to_file` (storage.py:388-394): headers become strings. -/
def writeMeta {H : Type} (toStr : H → String) (h : Dict (Dict H)) : Dict (Dict String) :=
  h.foldl (fun out b => dset out b.1 (b.2.foldl (fun o e => dset o e.1 (toStr e.2)) [])) []

/-- `MetaStore.read_from_file` (storage.py:400-413). -/
def readMeta {H : Type} (fromStr : String → H) (h : Dict (Dict String)) : Dict (Dict H) :=
  h.foldl (fun out b => dset out b.1 (b.2.foldl (fun o e => dset o e.1 (fromStr e.2)) [])) []

/-- A metadata store with its cache of astrometric solutions. -/
structure MetaState (H W : Type) where
  headers : Dict (Dict H)
  wcs : Dict (Dict W)

/-- `MetaStore.add_exposure` on the store: the cache is left alone (storage.py:366-370). -/
def MetaState.add {H W : Type} (m : MetaState H W) (band exp : String) (hdr : H) : MetaState H W :=
  { m with headers := addMeta m.headers band exp hdr }

/-- The astrometric solution `find_exposures` uses for one exposure, cached on first use
(storage.py:453-464). -/
def MetaState.wcsOf {H W : Type} (mk : H → W) (m : MetaState H W) (band exp : String) :
    Option (W × MetaState H W) :=
  (getMeta m.headers band exp).map fun hdr =>
    let cache := if (dget m.wcs band).isSome then m.wcs else dset m.wcs band []
    match (dget cache band).bind fun e => dget e exp with
    | some w => (w, { m with wcs := cache })
    | none => (mk hdr, { m with wcs := dset cache band (dset ((dget cache band).getD []) exp (mk hdr)) })

/-! ## PSF lookup -/

section
variable {K : Type} [Field K] [LinearOrder K]

/-- Index of the first smallest entry (`argmin`), with the smallest value, from index `i`. -/
def argminFrom : Nat → List K → Option (Nat × K)
  | _, [] => none
  | i, x :: xs =>
    match argminFrom (i + 1) xs with
    | none => some (i, x)
    | some (j, y) => if y < x then some (j, y) else some (i, x)

/-- `PSFStore.lookup` (storage.py:544-557).  The distance is compared through its square.  The
location table must have exactly two rows; any failure (no position, no or malformed table) selects
entry 0. -/
def lookupIndex (rows : Option (List (List K))) (xy : Option (K × K)) : Nat :=
  match xy, rows with
  | some (x, y), some [xp, yp] =>
    if xp.length = yp.length then
      match argminFrom 0 ((xp.zip yp).map fun p => (x - p.1) ^ 2 + (y - p.2) ^ 2) with
      | some (i, _) => i
      | none => 0
    else 0
  | _, _ => 0

/-- The parameters returned; `IndexError` if the table is too short. -/
def lookup {P : Type} (rows : Option (List (List K))) (params : List P) (xy : Option (K × K)) :
    Except Err P :=
  match params[lookupIndex rows xy]? with
  | some p => .ok p
  | none => .error .indexError

/-- `PSFStore.get_local_psf` (storage.py:559-574): the position is used only if an astrometric
solution is passed. -/
def getLocalPsf {P S : Type} (rows : Option (List (List K))) (params : List P)
    (wcs : Option (S → K × K)) (source : S) : Except Err P :=
  lookup rows params (wcs.map fun w => w source)

end

end Forcepho.Storage
