import Mathlib.Data.List.Sort
import Mathlib.Algebra.Order.Floor.Ring
import Mathlib.Algebra.Order.Field.Basic

/-! # Percentiles and combined chains (forcepho/utils/catalog.py, forcepho/utils/corner.py)

Numbers are elements of a linearly ordered field with floor; not-a-number is not a sample.
-/

set_option autoImplicit false

namespace Forcepho.Quantile

variable {K : Type} [Field K] [LinearOrder K] [FloorRing K]

/-- `np.percentile(xs, q=p)` with its default, linear, interpolation between order statistics, as used in
forcepho/utils/catalog.py:140 and forcepho/utils/corner.py:626. `none` for no samples or a percentile outside
`[0, 100]` (numpy raises). -/
def percentile (xs : List K) (p : K) : Option K :=
  if xs = [] ∨ p < 0 ∨ 100 < p then none
  else
    let s := xs.insertionSort (· ≤ ·)
    let v : K := ((xs.length - 1 : Nat) : K) * (p / 100)
    let i := ⌊v⌋.toNat
    let a := s.getD i 0
    let b := s.getD (min (i + 1) (xs.length - 1)) 0
    some (a + (b - a) * (v - i))

/-- A column of a catalog: one number per row, or one list of samples per row. Columns whose rows are
themselves two-dimensional are left out. -/
inductive Col (K : Type) where
  | scalar (vals : List K)
  | samples (vals : List (List K))

/-- All results or nothing (a raised exception aborts). -/
def allSome {α : Type} : List (Option α) → Option (List α)
  | [] => some []
  | none :: _ => none
  | some a :: rest => (allSome rest).map (a :: ·)

/-- The loop body of `pctile_cat` for one column (forcepho/utils/catalog.py:138-143). -/
def pctileCol (ps : List K) (name : String) : Col K → Option (String × Col K)
  | .scalar vals => some (name, .scalar vals)
  | .samples vals =>
    (allSome (vals.map fun row => allSome (ps.map (percentile row)))).map fun v => (name, .samples v)

/-- Whether a column holds samples (catalog.py:131-136). -/
def isSamples : Col K → Bool
  | .samples _ => true
  | .scalar _ => false

/-- `pctile_cat` (forcepho/utils/catalog.py:91-148): the catalog with each sample column replaced by its
percentiles, and the header's list of sample columns. The type of the columns is floating point; with a single
percentile numpy makes the column scalar, which is not modelled. -/
def pctileCat (cat : List (String × Col K)) (ps : List K) : Option (List (String × Col K) × List String) :=
  (allSome (cat.map fun c => pctileCol ps c.1 c.2)).map fun out =>
    (out, (cat.filter fun c => isSamples c.2).map (·.1))

/-- `np.interp` right of the point `(a, u)`: linear up to the first point right of `x`, the last value behind the
last point. -/
def interpFrom (a u : K) : List (K × K) → K → K
  | [], _ => u
  | (b, v) :: rest, x => if x < b then u + (v - u) / (b - a) * (x - a) else interpFrom b v rest x

/-- `np.interp(x, xp, fp)` for non-decreasing `xp`. -/
def interp : List (K × K) → K → Option K
  | [], _ => none
  | (a, u) :: rest, x => some (if x < a then u else interpFrom a u rest x)

/-- `np.cumsum`. -/
def cumsum (acc : K) : List K → List K
  | [] => []
  | w :: ws => (acc + w) :: cumsum (acc + w) ws

/-- `sorted` is a possible result of sorting the samples together with their weights (corner.py:632-633): numpy's
default sort leaves the order of equal samples open. -/
def IsSorted (xs ws : List K) (sorted : List (K × K)) : Prop :=
  sorted.Perm (xs.zip ws) ∧ sorted.Pairwise fun a b => a.1 ≤ b.1

/-- The weighted branch of `_quantile` (forcepho/utils/corner.py:628-638), given the sorted samples. `none` for an
exception (different lengths, fewer than two samples) and for not-a-number (the weights but the last add up to
zero). -/
def weightedQuantile (xs ws : List K) (sorted : List (K × K)) (q : K) : Option K :=
  if q < 0 ∨ 1 < q then none
  else if xs.length ≠ ws.length then none
  else
    let cdf := (cumsum 0 (sorted.map (·.2))).dropLast
    match cdf.getLast? with
    | none => none
    | some t =>
      if t = 0 then none
      else interp ((0 :: cdf.map (· / t)).zip (sorted.map (·.1))) q

/-- `_quantile` without weights (corner.py:620-626). -/
def quantile (xs : List K) (q : K) : Option K :=
  if q < 0 ∨ 1 < q then none else percentile xs (100 * q)

/-- `get_spans` for one parameter given a fraction (corner.py:570-575). -/
def spanOf (xs : List K) (f : K) : Option (K × K) :=
  match quantile xs (1 / 2 - 1 / 2 * f), quantile xs (1 / 2 + 1 / 2 * f) with
  | some a, some b => some (a, b)
  | _, _ => none

/-! ## Combining chains -/

/-- An entry of an id column. -/
inductive Ident where
  | int (n : Int)
  | str (s : String)
  deriving DecidableEq

/-- A catalog of samples: ids (`none` if there is no such column), names of the sample columns, number of
samples, value by row, column and sample. -/
structure SampleCat (K : Type) where
  nrow : Nat
  ids : Option (List Ident)
  names : List String
  npoint : Nat
  val : Nat → String → Nat → K

/-- The exceptions of combining chains (forcepho/utils/catalog.py). -/
inductive Err where
  | keyError
  | indexError
  | valueError
  deriving DecidableEq

/-- A row of the combined catalog; a mean over no source is not-a-number, `none`. -/
structure Combined (K : Type) where
  id : String
  flux : String → Nat → K
  ra : Nat → Option K
  dec : Nat → Option K

/-- `mid.index(s)` for a string `s`. -/
def indexOf (mid : List Ident) (s : String) : Except Err Nat :=
  match mid.findIdx? fun x => decide (x = .str s) with
  | some k => .ok k
  | none => .error .valueError

/-- `[mid.index(i) for i in ids]`. -/
def indices (mid : List Ident) : List String → Except Err (List Nat)
  | [] => .ok []
  | s :: rest =>
    match indexOf mid s with
    | .error e => .error e
    | .ok k => match indices mid rest with
      | .error e => .error e
      | .ok ks => .ok (k :: ks)

/-- One group (catalog.py:73-86). `floatStr g` is `str(float(g))`, `none` if that raises. -/
def combineOne (floatStr : String → Option String) (cat : SampleCat K) (mid : List Ident) (bands : List String)
    (g : String) (sub : List String) : Except Err (Combined K × String × String) :=
  match floatStr g with
  | none => .error .valueError
  | some name =>
    match indices mid sub with
    | .error e => .error e
    | .ok inds =>
      if bands.any fun b => ¬ cat.names.contains b then .error .keyError
      else if ¬ cat.names.contains "dec" then .error .keyError
      else
        let sum := fun c k => (inds.map fun i => cat.val i c k).sum
        let mean := fun c k => if inds = [] then none else some (sum c k / (inds.length : K))
        .ok (⟨name, fun b k => if bands.contains b then sum b k else 0, mean "ra", mean "dec"⟩,
          "G" ++ g, ",".intercalate sub)

/-- The columns of the combined catalog (`out_dtype`, catalog.py:31-38, with the shapes of catalog.py:67). -/
def outNames (npoint : Nat) (bands : List String) : List String :=
  ["id", "source_index", "wall", "lnp_best"] ++ (if 3 < npoint then ["lnp"] else []) ++ (bands ++ ["ra", "dec"])

/-- `combine_chains` (forcepho/utils/catalog.py:60-88). numpy has no type with two columns of one name. Group keys and members are given by their strings. -/
def combineChains (floatStr : String → Option String) (cat : SampleCat K) (bands : List String)
    (groups : List (String × List String)) : Except Err (List (Combined K) × List (String × String)) :=
  if ¬ cat.names.contains "ra" then .error .keyError
  else if cat.nrow = 0 then .error .indexError
  else if ¬ (outNames cat.npoint bands).Nodup then .error .valueError
  else match cat.ids with
    | none => .error .keyError
    | some mid =>
      let rec loop : List (String × List String) → Except Err (List (Combined K) × List (String × String))
        | [] => .ok ([], [])
        | (g, sub) :: rest =>
          match combineOne floatStr cat mid bands g sub with
          | .error e => .error e
          | .ok (row, key, value) =>
            match loop rest with
            | .error e => .error e
            | .ok (rows, hdr) => .ok (row :: rows, (key, value) :: hdr)
      loop groups

end Forcepho.Quantile
