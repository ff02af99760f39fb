import Mathlib.Algebra.Group.Defs
import Mathlib.Data.List.Basic

/-! # Chain catalogs, covariance blocks and combined chains
(forcepho/utils/chain.py, forcepho/utils/__init__.py, forcepho/utils/catalog.py)

Numbers are elements of an additive group or field; `none` is an exception.  A two-dimensional numpy
array is its shape and a function of the indices. -/

set_option autoImplicit false

namespace Forcepho.Chain

variable {K : Type}

/-- A two-dimensional array. -/
structure Arr2 (K : Type) where
  nrow : Nat
  ncol : Nat
  at_ : Nat → Nat → K

/-- The structured array made by `make_chaincat`: one row per source; `val s col it`. -/
structure ChainCat (K : Type) where
  nsource : Nat
  niter : Nat
  index : Nat → Int
  names : List String
  val : Nat → String → Nat → K

/-- The inner loop of `make_chaincat` (chain.py:54-55) for one source whose parameters begin at
`start`: one assignment per column, in order. -/
def fillRow (chain : Arr2 K) (start : Nat) : List String → Nat → (String → Nat → K) → String → Nat → K
  | [], _, row => row
  | col :: rest, j, row =>
    fillRow chain start rest (j + 1) fun c it => if c = col then chain.at_ it (start + j) else row c it

/-- `cat[name] += x` (chain.py:58-59). -/
def addTo [Add K] (name : String) (x : K) (val : Nat → String → Nat → K) (s : Nat) (c : String) (it : Nat) : K :=
  if c = name then val s c it + x else val s c it

/-- `make_chaincat` (chain.py:25-61).  `active` holds the `source_index` column.  The exceptions: the
two assertions, the division when there are no columns at all, duplicate field names, and a missing
`ra` or `dec` column. -/
def makeChaincat [AddGroup K] (chain : Arr2 K) (bands : List String) (active : List Int) (ref : K × K)
    (shapes : List String) : Option (ChainCat K) :=
  let colnames := bands ++ shapes
  let per := bands.length + shapes.length
  if per = 0 then none
  else if chain.ncol % per ≠ 0 then none
  else
    let nsource := chain.ncol / per
    if nsource ≠ active.length then none
    else if ¬ (("source_index" :: colnames).Nodup) then none
    else if "ra" ∉ colnames ∨ "dec" ∉ colnames then none
    else
      let val := fun s => fillRow chain (s * per) colnames 0 fun _ _ => 0
      some {
        nsource := nsource
        niter := chain.nrow
        index := fun s => active.getD s 0
        names := colnames
        val := addTo "dec" ref.2 (addTo "ra" ref.1 val) }

/-- Python index of an axis of length `n`. -/
def pyIndex (n : Nat) (i : Int) : Option Nat :=
  if 0 ≤ i then (if i < n then some i.toNat else none)
  else if 0 ≤ i + n then some (i + n).toNat else none

/-- A structured array with one value per cell: the source indices and the other columns. -/
structure Table (K : Type) where
  nrow : Nat
  index : Nat → Int
  names : List String
  at_ : Nat → String → K

/-- The position read by `get_sample_cat` along the iterations (chain.py:90-93): out of range the
IndexError is caught and the whole array is assigned, which numpy rejects unless source and iteration
are single. -/
def samplePos (nsource niter : Nat) (it : Int) : Option Nat :=
  match pyIndex niter it with
  | some k => some k
  | none => if nsource = 1 ∧ niter = 1 then some 0 else none

/-- `get_sample_cat` (chain.py:64-94): the columns of `active` that the chain catalog also has are
replaced, `source_index` by the catalog's.  The number of rows must agree (numpy broadcasting of a
single row is left out). -/
def getSampleCat (cat : ChainCat K) (it : Int) (active : Table K) : Option (Table K) :=
  if active.nrow ≠ cat.nsource then none
  else if active.names.any (fun d => decide (d ∈ cat.names)) then
    (samplePos cat.nsource cat.niter it).map fun k =>
      { active with
        index := cat.index
        at_ := fun s d => if d ∈ cat.names then cat.val s d k else active.at_ s d }
  else some { active with index := cat.index }

/-! ## Covariance blocks -/

/-- A strided view of a buffer. -/
structure View where
  off : Nat
  nrow : Nat
  ncol : Nat
  s0 : Nat
  s1 : Nat

/-- `a[m:]` on rows. -/
def View.dropRows (v : View) (m : Nat) : View :=
  { v with off := v.off + min m v.nrow * v.s0, nrow := v.nrow - m }

/-- `a[:, m:]`. -/
def View.dropCols (v : View) (m : Nat) : View :=
  { v with off := v.off + min m v.ncol * v.s1, ncol := v.ncol - m }

/-- `extract_block_diag` (utils/__init__.py:51-81) as addresses into the buffer: block, row, column.
`none`: `n = 0` (ValueError). -/
def extractBlockDiag (v : View) (n : Nat) (k : Int) : Option (List (List (List Nat))) :=
  if n = 0 then none
  else
    let a := if 0 < k then v.dropCols (n * k.toNat) else v.dropRows (n * (-k).toNat)
    let nBlocks := min (a.nrow / n) (a.ncol / n)
    some ((List.range nBlocks).map fun b => (List.range n).map fun r => (List.range n).map fun c =>
      a.off + b * (n * a.s0 + n * a.s1) + r * a.s0 + c * a.s1)

/-- A contiguous row-major matrix. -/
def contiguous (nrow ncol : Nat) : View := ⟨0, nrow, ncol, ncol, 1⟩

/-- `scipy.linalg.block_diag` of `m` square blocks of size `n` (called at superscene.py:356): the
matrix, entry by entry. -/
def blockDiag [Zero K] (n : Nat) (blocks : Nat → Nat → Nat → K) (i j : Nat) : K :=
  if i / n = j / n then blocks (i / n) (i % n) (j % n) else 0

/-- The buffer of a matrix of `ncol` columns. -/
def buffer (ncol : Nat) (f : Nat → Nat → K) (a : Nat) : K := f (a / ncol) (a % ncol)

end Forcepho.Chain
