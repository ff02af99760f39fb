import Mathlib.Data.Rat.Floor
import Mathlib.Data.Real.Basic
import Mathlib.Data.List.Basic
import Mathlib.Tactic.Linarith

/-! # Images from residual files
(forcepho/postprocess.py `Residuals.fill_images`, `write_images`; forcepho/utils/__init__.py
`populate_image`)

Coordinates are rationals (they are stored in the patch's pixel type), pixel values are of any type
with a distinguished not-a-number.  An image is its shape and a function of the two indices.  The name
of an exposure is the list of the components of its path, so that `e.split("/")` is the list itself.
Headers are reduced to the pair `(NAXIS1, NAXIS2)`. -/

set_option autoImplicit false

namespace Forcepho.Postprocess

variable {V : Type}

/-- The exceptions that occur. -/
inductive Err
  | index | key | value | os | assertion | attribute
  deriving DecidableEq, Repr

/-- `astype(int)`: towards zero. -/
def trunc (q : ℚ) : Int := if 0 ≤ q then ⌊q⌋ else ⌈q⌉

/-- numpy's index convention along an axis of length `n`; `none` is an `IndexError`. -/
def wrap (n : Nat) (i : Int) : Option Nat :=
  if 0 ≤ i ∧ i < n then some i.toNat
  else if -(n : Int) ≤ i ∧ i < 0 then some (i + n).toNat
  else none

/-- An image array with its shape (`fill_images`, postprocess.py:124-146). -/
structure Image (V : Type) where
  nx : Nat
  ny : Nat
  pix : Nat → Nat → V

/-- `np.zeros(shape) + np.nan`. -/
def blank (nan : V) (shape : Nat × Nat) : Image V := ⟨shape.1, shape.2, fun _ _ => nan⟩

/-- One assignment. -/
def put (f : Nat → Nat → V) (t : (Nat × Nat) × V) : Nat → Nat → V :=
  fun i j => if (i, j) = t.1 then t.2 else f i j

/-- Both indices of one element. -/
def cell (nx ny : Nat) (p : Int × Int) : Option (Nat × Nat) :=
  (wrap nx p.1).bind fun i => (wrap ny p.2).map fun j => (i, j)

/-- `arr` broadcast to `n` elements. -/
def broadcast (n : Nat) (arr : List V) : Option (List V) :=
  if arr.length = n then some arr
  else match arr with
    | [v] => some (List.replicate n v)
    | _ => none

/-- `im[x, y] = arr`: all indices are checked before anything is written. -/
def assign (im : Image V) (coords : List (Int × Int)) (arr : List V) : Except Err (Image V) :=
  match coords.mapM (cell im.nx im.ny) with
  | none => .error .index
  | some cells =>
    match broadcast cells.length arr with
    | none => .error .value
    | some vs => .ok { im with pix := (cells.zip vs).foldl put im.pix }

/-- The part of a residual file that is read: the list `epaths`, and for each exposure its `xpix`,
`ypix` and the other datasets by name (utils/io.py:54-94). -/
structure File (V : Type) where
  exposures : List (List String)
  coords : List String → Option (List (ℚ × ℚ))
  dataset : List String → String → Option (List V)

/-- Where the headers come from: a metadata store, or the FITS files on disk. -/
structure Headers where
  metastore : Option (String → String → Option (Nat × Nat))
  disk : List String → Option (Nat × Nat)

/-- The dictionaries that are filled, and the local variable `imshape`. -/
structure Fill (V : Type) where
  images : List String → Option (Image V)
  headers : List String → Option (Nat × Nat)
  imshape : Nat × Nat

/-- postprocess.py:131-140, header of a new image; `none` when there is none. -/
def header (h : Headers) (e : List String) : Except Err (Option (Nat × Nat)) :=
  match h.metastore with
  | some m =>
    match e with
    | [band, exp] =>
      match m band exp with
      | some s => .ok (some s)
      | none => .error .key
    | _ => .error .value
  | none => .ok (h.disk e)

/-- postprocess.py:129-141, creating the array.  `imshape` is assigned and keeps its value for the
exposures that follow. -/
def create (h : Headers) (nan : V) (e : List String) (st : Fill V) : Except Err (Fill V) :=
  match st.images e with
  | some _ => .ok st
  | none =>
    match header h e with
    | .error x => .error x
    | .ok s =>
      let shape := s.getD st.imshape
      .ok { images := Function.update st.images e (some (blank nan shape))
            headers := match s with
              | some s => Function.update st.headers e (some s)
              | none => st.headers
            imshape := shape }

/-- postprocess.py:142-144, writing the pixels of one exposure. -/
def write (f : File V) (name : String) (e : List String) (st : Fill V) : Except Err (Fill V) :=
  match f.coords e, f.dataset e name, st.images e with
  | some c, some arr, some im =>
    match assign im (c.map fun p => (trunc p.1, trunc p.2)) arr with
    | .ok im' => .ok { st with images := Function.update st.images e (some im') }
    | .error x => .error x
  | _, _, _ => .error .key

/-- The loop of `fill_images` (postprocess.py:128-144).  The dictionaries are the caller's, so what was
done before an exception remains. -/
def fillLoop (h : Headers) (nan : V) (f : File V) (name : String) :
    List (List String) → Fill V → Fill V × Option Err
  | [], st => (st, none)
  | e :: es, st =>
    match create h nan e st with
    | .error x => (st, some x)
    | .ok st1 =>
      match write f name e st1 with
      | .error x => (st1, some x)
      | .ok st2 => fillLoop h nan f name es st2

/-- `Residuals.fill_images` (postprocess.py:124-146). -/
def fillImages (h : Headers) (nan : V) (f : File V) (name : String) (st : Fill V) : Fill V × Option Err :=
  fillLoop h nan f name f.exposures st

/-- The default `imshape`. -/
def defaultShape : Nat × Nat := (2048, 2048)

/-- A call that leaves `images` and `headers` at their defaults: Python keeps one dictionary for all
such calls, `kept`. -/
def fillDefault (h : Headers) (nan : V) (f : File V) (name : String) (kept : Fill V) : Fill V × Option Err :=
  fillImages h nan f name { kept with imshape := defaultShape }

/-- Nothing has been filled. -/
def noImages : Fill V := ⟨fun _ => none, fun _ => none, defaultShape⟩

/-! ## write_images -/

/-- The four dictionaries of `write_images` (postprocess.py:459-465). -/
structure Run (V : Type) where
  deltas : Fill V
  datas : Fill V
  ierrs : Fill V

/-- The loop over files (postprocess.py:461-465); an exception ends the run. -/
def fillAll (h : Headers) (nan : V) : List (File V) → Run V → Except Err (Run V)
  | [], r => .ok r
  | f :: fs, r =>
    match fillImages h nan f "residual" { r.deltas with imshape := defaultShape } with
    | (_, some x) => .error x
    | (de, none) =>
      match fillImages h nan f "data" { r.datas with imshape := defaultShape } with
      | (_, some x) => .error x
      | (da, none) =>
        match fillImages h nan f "ierr" { r.ierrs with imshape := defaultShape } with
        | (_, some x) => .error x
        | (ie, none) => fillAll h nan fs ⟨de, da, ie⟩

/-- Elementwise arithmetic with not-a-number. -/
def lift2 (op : ℝ → ℝ → ℝ) (a b : Option ℝ) : Option ℝ := a.bind fun x => b.map fun y => op x y

/-- Elementwise operation on two arrays of the same shape. -/
noncomputable def zipImage (op : ℝ → ℝ → ℝ) (a b : Image (Option ℝ)) : Image (Option ℝ) :=
  ⟨a.nx, a.ny, fun i j => lift2 op (a.pix i j) (b.pix i j)⟩

/-- `.T`. -/
def transpose (a : Image V) : Image V := ⟨a.ny, a.nx, fun i j => a.pix j i⟩

/-- What is written for one exposure (postprocess.py:454-479): the transposed data, residual, model
and chi images. -/
structure Written (V : Type) where
  data : Image V
  delta : Image V
  model : Image V
  chi : Image V

/-- postprocess.py:469-492 for one exposure with both switches on.  The FITS header of a written array
has the length of the last axis as `NAXIS1`; it is compared with the header of the exposure. -/
noncomputable def writeOne (r : Run (Option ℝ)) (e : List String) : Except Err (Written (Option ℝ)) :=
  match r.datas.images e, r.deltas.images e, r.ierrs.images e with
  | some da, some de, some ie =>
    let w : Written (Option ℝ) :=
      ⟨transpose da, transpose de, transpose (zipImage (· - ·) da de), transpose (zipImage (· * ·) de ie)⟩
    match r.datas.headers e with
    | some s => if w.data.ny = s.1 ∧ w.data.nx = s.2 then .ok w else .error .assertion
    | none => .ok w
  | _, _, _ => .error .key

/-! ## populate_image -/

/-- Smallest and largest element; `none` for an empty array (`ValueError`). -/
def minmax : List ℚ → Option (ℚ × ℚ)
  | [] => none
  | x :: xs => some (xs.foldl min x, xs.foldl max x)

/-- `populate_image` (utils/__init__.py:84-102): the image and its `lo` and `hi` corners. -/
def populateImage (nan : V) (pixels : List ((ℚ × ℚ) × V)) : Except Err (Image V × (ℚ × ℚ) × (ℚ × ℚ)) :=
  let g := pixels.filter fun p => 0 ≤ p.1.1 ∧ 0 ≤ p.1.2
  match minmax (g.map (·.1.1)), minmax (g.map (·.1.2)) with
  | some (x0, x1), some (y0, y1) =>
    let lo := (x0 - 1 / 2, y0 - 1 / 2)
    let hi := (x1 + 1 / 2, y1 + 1 / 2)
    let im := blank nan ((trunc (hi.1 - lo.1)).toNat, (trunc (hi.2 - lo.2)).toNat)
    match assign im (g.map fun p => (trunc (p.1.1 - lo.1), trunc (p.1.2 - lo.2))) (g.map (·.2)) with
    | .ok im => .ok (im, lo, hi)
    | .error x => .error x
  | _, _ => .error .value

end Forcepho.Postprocess
