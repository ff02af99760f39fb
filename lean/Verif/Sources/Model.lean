import Mathlib.Data.List.Basic
import Mathlib.Logic.Function.Basic

/-!
# Model of `forcepho/sources.py`: sources, scenes and their parameter vectors

Numbers are of an arbitrary type `K`; rounding to `float32` in catalogs and proposals is not
modelled.  Spline amplitudes are inputs.  Python objects are values here, so two scene entries
that alias one source object are not modelled.
-/

set_option autoImplicit false

namespace Forcepho.Sources

variable {K : Type}

/-- Source classes: `Source`, `Star`, `SimpleGalaxy`, `Galaxy(free_sersic)`,
`ConformalShearGalaxy(free_sersic)` (sources.py:218, 730, 795, 501, 868). -/
inductive Cls
  | base
  | star
  | simple
  | galaxy (free : Bool)
  | conformal (free : Bool)
  deriving DecidableEq, Repr

/-- Scalar attributes. -/
inductive Attr
  | ra | dec | q | pa | sersic | rhalf | ep | ec
  deriving DecidableEq, Repr

/-- Column name of an attribute. -/
def Attr.name : Attr → String
  | .ra => "ra" | .dec => "dec" | .q => "q" | .pa => "pa"
  | .sersic => "sersic" | .rhalf => "rhalf" | .ep => "ep" | .ec => "ec"

/-- Exceptions. -/
inductive Err
  | assertionError
  | valueError
  | indexError
  | attributeError
  | typeError
  deriving DecidableEq, Repr

/-- A source object (sources.py:234-269). -/
structure Source (K : Type) where
  cls : Cls
  filternames : List String
  flux : List K
  attr : Attr → K
  id : Nat
  fixed : Bool

/-- `npos` (sources.py:242, 528, 742, 813). -/
def npos : Nat := 2

/-- `nshape` (sources.py:242, 529, 552, 743, 814). -/
def nshape : Cls → Nat
  | .base => 2
  | .star => 0
  | .simple => 2
  | .galaxy true => 4
  | .galaxy false => 2
  | .conformal true => 4
  | .conformal false => 2

/-- `SHAPE_COLS` (sources.py:240, 527, 553, 741, 812, 886).  A `ConformalShearGalaxy` with a
fixed Sersic index gets the columns of a `Galaxy`. -/
def shapeCols : Cls → List Attr
  | .base => [.ra, .dec, .q, .pa, .rhalf, .sersic]
  | .star => [.ra, .dec]
  | .simple => [.ra, .dec, .q, .pa]
  | .galaxy true => [.ra, .dec, .q, .pa, .sersic, .rhalf]
  | .galaxy false => [.ra, .dec, .q, .pa]
  | .conformal true => [.ra, .dec, .ep, .ec, .sersic, .rhalf]
  | .conformal false => [.ra, .dec, .q, .pa]

/-- The attributes written by `set_params` and read by `get_param_vector`, in vector order:
`SHAPE_COLS` in the base class (sources.py:365-366, 380), explicit lists in the others
(586-592, 602-604; 771-772, 781; 842-845, 854; 926-932, 941-943). -/
def vecAttrs : Cls → List Attr
  | .base => [.ra, .dec, .q, .pa, .rhalf, .sersic]
  | .star => [.ra, .dec]
  | .simple => [.ra, .dec, .q, .pa]
  | .galaxy true => [.ra, .dec, .q, .pa, .sersic, .rhalf]
  | .galaxy false => [.ra, .dec, .q, .pa]
  | .conformal true => [.ra, .dec, .ep, .ec, .sersic, .rhalf]
  | .conformal false => [.ra, .dec, .ep, .ec]

/-- The number of non-flux parameters `set_params` asserts (sources.py:362, 584, 769, 840, 924). -/
def assertedShape : Cls → Nat
  | .base => (shapeCols .base).length
  | .star => 2
  | .simple => 4
  | .galaxy free => npos + nshape (.galaxy free)
  | .conformal free => npos + nshape (.conformal free)

/-- `n_bands` (sources.py:277-282). -/
def Source.nBands (s : Source K) : Nat := s.filternames.length

/-- `n_params` (sources.py:284-289). -/
def Source.nParams (s : Source K) : Nat := npos + nshape s.cls + s.nBands

/-- `filter_index` (sources.py:383-399): `list.index`, `ValueError` if absent. -/
def Source.filterIndex (s : Source K) (f : String) : Except Err Nat :=
  match s.filternames.idxOf? f with
  | some i => .ok i
  | none => .error .valueError

/-- Assignment of consecutive vector entries to attributes. -/
def setAttrs (a : Attr → K) : List (Attr × K) → Attr → K
  | [] => a
  | (n, v) :: t => setAttrs (Function.update a n v) t

/-- `set_params` of all classes (sources.py:340-366 and the overrides at 559, 745, 816, 898).  The source is returned
unchanged with the error when the filter is unknown or the length is wrong. -/
def Source.setParams (s : Source K) (v : List K) (filt : Option String) :
    Source K × Option Err :=
  match filt with
  | some f =>
    match s.filterIndex f with
    | .error e => (s, some e)
    | .ok i =>
      if v.length ≠ 1 + assertedShape s.cls then (s, some .assertionError)
      else
        let flux := match v with
          | x :: _ => s.flux.set i x
          | [] => s.flux
        ({ s with
            flux := flux
            attr := setAttrs s.attr ((vecAttrs s.cls).zip (v.drop 1)) }, none)
  | none =>
    if v.length ≠ s.nBands + assertedShape s.cls then (s, some .assertionError)
    else
      let fl := v.take s.nBands
      -- numpy: `flux[:] = fl` needs equal shapes
      if fl.length ≠ s.flux.length then (s, some .valueError)
      else
        ({ s with
            flux := fl
            attr := setAttrs s.attr ((vecAttrs s.cls).zip (v.drop s.nBands)) }, none)

/-- The filter test of `get_param_vector`: in `Source` and `Star` it is `if filtername:`
(sources.py:376, 777), so the empty string means no filter there; in the
other classes it is `is not None`. -/
def normFilter (c : Cls) (filt : Option String) : Option String :=
  match c with
  | .base | .star => if filt = some "" then none else filt
  | _ => filt

/-- `get_param_vector` of all classes (sources.py:368-381 and the overrides at 594, 774, 847,
934). -/
def Source.getParams (s : Source K) (filt : Option String) : Except Err (List K) :=
  match normFilter s.cls filt with
  | none => .ok (s.flux ++ (vecAttrs s.cls).map s.attr)
  | some f =>
    match s.filterIndex f with
    | .error e => .error e
    | .ok i =>
      match s.flux[i]? with
      | some x => .ok (x :: (vecAttrs s.cls).map s.attr)
      | none => .error .indexError

/-- Object invariant set up by `__init__` (sources.py:265-267, 534-538). -/
def Source.WF (s : Source K) : Prop := s.flux.length = s.filternames.length

/-- A scene is its list of sources (sources.py:28-44). -/
abbrev Scene (K : Type) := List (Source K)

/-- `Scene.set_all_source_params` (sources.py:46-61), from `start` on.  Python slices never
raise; a short slice fails the length assertion of `set_params`. -/
def setAllFrom (theta : List K) : Scene K → Nat → Scene K × Option Err
  | [], _ => ([], none)
  | s :: rest, start =>
    if s.fixed then
      let (r, e) := setAllFrom theta rest start
      (s :: r, e)
    else
      let stop := start + s.nParams
      match s.setParams ((theta.take stop).drop start) none with
      | (s', some e) => (s' :: rest, some e)
      | (s', none) =>
        let (r, e) := setAllFrom theta rest stop
        (s' :: r, e)

/-- `Scene.set_all_source_params` (sources.py:46-61). -/
def setAll (sc : Scene K) (theta : List K) : Scene K × Option Err := setAllFrom theta sc 0

/-- `np.concatenate` of a list of arrays; `ValueError` on an empty list. -/
def concat : List (List K) → Except Err (List K)
  | [] => .error .valueError
  | l => .ok l.flatten

/-- Read the vectors of a list of sources. -/
def readAll : List (Source K) → Except Err (List (List K))
  | [] => .ok []
  | s :: t =>
    match s.getParams none with
    | .error e => .error e
    | .ok v =>
      match readAll t with
      | .error e => .error e
      | .ok vs => .ok (v :: vs)

/-- `active_sources` (sources.py:111-115). -/
def activeSources (sc : Scene K) : List (Source K) := sc.filter fun s => !s.fixed

/-- `Scene.get_all_source_params` (sources.py:63-78). -/
def getAll (sc : Scene K) (active : Bool) : Except Err (List K) :=
  match readAll (if active then activeSources sc else sc) with
  | .error e => .error e
  | .ok vs => concat vs

/-- `Scene.identify_sources` (sources.py:99-103). -/
def identify (sc : Scene K) : Scene K := sc.mapIdx fun i s => { s with id := i }

/-- `Scene.param_indices` (sources.py:185-215).  `filternames.index(None)` raises `ValueError`. -/
def paramIndices (sc : Scene K) (sid : Nat) (f : Option String) : Except Err (List Nat) :=
  let start := (((activeSources sc).take sid).map (·.nParams)).sum
  match sc[sid]? with
  | none => .error .indexError
  | some s =>
    let inds := (List.range (s.nParams - s.nBands)).map fun k => start + s.nBands + k
    match f with
    | none => .error .valueError
    | some f =>
      match s.filterIndex f with
      | .error e => .error e
      | .ok i => .ok ((start + i) :: inds)

/-! ## Catalog rows -/

/-- A row of a structured array: ordered named columns. -/
abbrev CatRow (K : Type) := List (String × K)

/-- `row[name]`; a missing field is a `ValueError`. -/
def CatRow.get (r : CatRow K) (name : String) : Except Err K :=
  match r.find? (fun e => e.1 = name) with
  | some e => .ok e.2
  | none => .error .valueError

/-- `Source.to_catalog_row` (sources.py:442-456) without extra columns; the id is converted to a
number by `toK`.  Duplicate column names make `np.dtype` raise `ValueError`. -/
def toCatalogRow (toK : Nat → K) (s : Source K) : Except Err (CatRow K) :=
  let cols := ["id"] ++ s.filternames ++ (shapeCols s.cls).map Attr.name
  if cols.Nodup then
    if s.filternames.length ≤ s.flux.length then
      .ok (("id", toK s.id) :: (s.filternames.zip s.flux ++
        (shapeCols s.cls).map fun a => (a.name, s.attr a)))
    else .error .indexError
  else .error .valueError

/-- Read attributes from a row and store them. -/
def readAttrs (r : CatRow K) (a : Attr → K) : List Attr → Except Err (Attr → K)
  | [] => .ok a
  | n :: t =>
    match r.get n.name with
    | .error e => .error e
    | .ok v => readAttrs r (Function.update a n v) t

/-- Read columns from a row. -/
def readCols (r : CatRow K) : List String → Except Err (List K)
  | [] => .ok []
  | n :: t =>
    match r.get n with
    | .error e => .error e
    | .ok v =>
      match readCols r t with
      | .error e => .error e
      | .ok vs => .ok (v :: vs)

/-- `Source.from_catalog_row` (sources.py:458-468) without optional arguments.  The `q` and `pa`
of a `ConformalShearGalaxy` are properties without setters, so storing them raises
`AttributeError`. -/
def fromCatalogRow (s : Source K) (r : CatRow K) : Except Err (Source K) :=
  if s.cls = .conformal false then
    match readAttrs r s.attr [.ra, .dec] with
    | .error e => .error e
    | .ok _ => match r.get Attr.q.name with
      | .error e => .error e
      | .ok _ => .error .attributeError
  else
    match readAttrs r s.attr (shapeCols s.cls) with
    | .error e => .error e
    | .ok a =>
      match readCols r s.filternames with
      | .error e => .error e
      | .ok fl => .ok { s with attr := a, flux := fl }

/-- `source_type(filternames=...)`: only `Galaxy` and `ConformalShearGalaxy` accept the keyword
(sources.py:531-535); the others raise `TypeError`. -/
def construct (zero : K) (dflt : Attr → K) (c : Cls) (filternames : List String) :
    Except Err (Source K) :=
  match c with
  | .galaxy _ => .ok
      { cls := c, filternames := filternames, flux := List.replicate filternames.length zero,
        attr := dflt, id := 0, fixed := false }
  | .conformal _ => .ok
      { cls := c, filternames := filternames, flux := List.replicate filternames.length zero,
        attr := dflt, id := 0, fixed := false }
  | _ => .error .typeError

/-- The loop of `Scene.from_catalog` (sources.py:177-181). -/
def fromRows (zero : K) (dflt : Attr → K) (c : Cls) (filternames : List String) :
    List (CatRow K) → Except Err (Scene K)
  | [] => .ok []
  | r :: rs =>
    match construct zero dflt c filternames with
    | .error e => .error e
    | .ok s =>
      match fromCatalogRow s r with
      | .error e => .error e
      | .ok s' =>
        match fromRows zero dflt c filternames rs with
        | .error e => .error e
        | .ok t => .ok (s' :: t)

/-- `Scene.from_catalog` (sources.py:154-183). -/
def fromCatalog (zero : K) (dflt : Attr → K) (c : Cls) (filternames : List String)
    (rows : List (CatRow K)) : Except Err (Scene K) :=
  match fromRows zero dflt c filternames rows with
  | .error e => .error e
  | .ok t => .ok (identify t)

/-- `Scene.to_catalog` (sources.py:135-152): one row per source, in order. -/
def toCatalog (toK : Nat → K) : Scene K → Except Err (List (CatRow K))
  | [] => .ok []
  | s :: t =>
    match toCatalogRow toK s with
    | .error e => .error e
    | .ok r =>
      match toCatalog toK t with
      | .error e => .error e
      | .ok rs => .ok (r :: rs)

/-! ## Proposals -/

/-- `MAXBANDS` (src/kernel_limits.h:5). -/
def maxBands : Nat := 30
/-- `MAXRADII` (src/kernel_limits.h:26). -/
def maxRadii : Nat := 10

/-- One entry of `source_struct_dtype` (proposal.py:230-240). -/
structure Proposal (K : Type) where
  ra : K
  dec : K
  q : K
  pa : K
  nsersic : K
  rh : K
  fluxes : List K
  amps : List K
  dampsRh : List K
  dampsN : List K

/-- The splines of a source (sources.py:656-694), as functions of the source. -/
structure Splines (K : Type) where
  amps : Source K → List K
  dRh : Source K → List K
  dN : Source K → List K

/-- numpy `buf[:len(vals)] = vals`: overwrite a prefix; `ValueError` if it does not fit. -/
def overwrite (buf vals : List K) : Except Err (List K) :=
  if vals.length ≤ buf.length then .ok (vals ++ buf.drop vals.length) else .error .valueError

/-- `Galaxy.proposal` (sources.py:607-621), writing into the object's buffer `mem` (allocated by
`np.empty`).  Only the `Galaxy` classes have the method.  `q` and `pa` of a
`ConformalShearGalaxy` are computed; here they are the attributes `q`, `pa`. -/
def proposal (sp : Splines K) (s : Source K) (mem : Proposal K) : Except Err (Proposal K) :=
  match s.cls with
  | .galaxy _ | .conformal _ =>
    match overwrite mem.fluxes s.flux with
    | .error e => .error e
    | .ok fl =>
      match overwrite mem.amps (sp.amps s), overwrite mem.dampsRh (sp.dRh s),
          overwrite mem.dampsN (sp.dN s) with
      | .ok a, .ok b, .ok c => .ok
          { ra := s.attr .ra, dec := s.attr .dec, q := s.attr .q, pa := s.attr .pa,
            nsersic := s.attr .sersic, rh := s.attr .rhalf,
            fluxes := fl, amps := a, dampsRh := b, dampsN := c }
      | .error e, _, _ => .error e
      | _, .error e, _ => .error e
      | _, _, .error e => .error e
  | _ => .error .attributeError

/-- The proposals of a list of sources, with the buffer of each source. -/
def proposals (sp : Splines K) (mem : Source K → Proposal K) :
    List (Source K) → Except Err (List (Proposal K))
  | [] => .ok []
  | s :: t =>
    match proposal sp s (mem s) with
    | .error e => .error e
    | .ok p =>
      match proposals sp mem t with
      | .error e => .error e
      | .ok ps => .ok (p :: ps)

/-- `Scene.get_proposal` (sources.py:80-97); `active = false` selects the fixed sources. -/
def getProposal (sp : Splines K) (mem : Source K → Proposal K) (sc : Scene K) (active : Bool) :
    Except Err (List (Proposal K)) :=
  match proposals sp mem (if active then activeSources sc else sc.filter fun s => s.fixed) with
  | .error e => .error e
  | .ok [] => .error .valueError
  | .ok ps => .ok ps

end Forcepho.Sources
