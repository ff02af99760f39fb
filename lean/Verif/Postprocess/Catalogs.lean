import Verif.Postprocess.Images
import Verif.Bounds.Model
import Mathlib.Data.Matrix.Basic

/-! # Catalogs made from the files of a run
(forcepho/postprocess.py `postsample_catalog`, `find_multipatch`, `flux_unc_linear`)

`read p` is the contents of the file written for patch `p`; `none` when there is no such file.  Patch
and source numbers are integers (in the log files the keys are strings of digits, converted with
`int`).  A chain catalog (`Samples.chaincat`) has one row per active source, in the order of
`active`. -/

set_option autoImplicit false

namespace Forcepho.Postprocess

variable {K : Type}

/-! ## postsample_catalog -/

/-- What is read of one file: `bands`, `shape_cols`, `n_sample`, `chaincat["source_index"]`,
`active["id"]`, `wall_time`, `stats["model_logp"]` and the columns of `chaincat`, one list of samples
per source. -/
structure Patch (K : Type) where
  bands : List String
  shapes : List String
  nSample : Nat
  index : List Int
  ids : List Int
  wall : K
  lnp : List K
  chain : String → Option (List (List K))

/-- A row of the catalog. -/
structure SampleRow (K : Type) where
  id : Int
  sourceIndex : Int
  patchId : Int
  wall : K
  lnp : List K
  val : String → List K

/-- `l[-n:]`; `l[-0:]` is all of `l`. -/
def lastN (n : Nat) (l : List K) : List K := if n = 0 then l else l.drop (l.length - n)

/-- `s.chaincat[col][t, -n:]` as it fits into a field of `n` samples (postprocess.py:292). -/
def cellOf (n : Nat) (s : Patch K) (t : Nat) (col : String) : Except Err (List K) :=
  match s.chain col with
  | none => .error .value
  | some rows =>
    match rows[t]? with
    | none => .error .value
    | some l =>
      match broadcast n (lastN n l) with
      | none => .error .value
      | some r => .ok r

/-- The loop over parameter columns (postprocess.py:291-292) for one source. -/
def colsOf (n : Nat) (s : Patch K) (t : Nat) : List String → (String → List K) → Except Err (String → List K)
  | [], v => .ok v
  | col :: cols, v =>
    match cellOf n s t col with
    | .error x => .error x
    | .ok r => colsOf n s t cols (Function.update v col r)

/-- The row of source number `t` of a patch (postprocess.py:286-292).  The assignments are made by
column with the same indices for all columns; here they are grouped by row. -/
def rowOf (n : Nat) (params : List String) (p : Int) (s : Patch K) (t : Nat) (z : Int) (old : SampleRow K) :
    Except Err (SampleRow K) :=
  match s.ids[t]? with
  | none => .error .value
  | some id =>
    match broadcast n (lastN n s.lnp) with
    | none => .error .value
    | some l =>
      match colsOf n s t params old.val with
      | .error x => .error x
      | .ok v => .ok ⟨id, z, p, s.wall, l, v⟩

/-- The rows of one patch, beginning with source number `t`. -/
def putRows (n : Nat) (params : List String) (p : Int) (s : Patch K) :
    List Int → Nat → List (SampleRow K) → Except Err (List (SampleRow K))
  | [], _, cat => .ok cat
  | z :: zs, t, cat =>
    match wrap cat.length z with
    | none => .error .index
    | some k =>
      match cat[k]? with
      | none => .error .index
      | some old =>
        match rowOf n params p s t z old with
        | .error x => .error x
        | .ok row => putRows n params p s zs (t + 1) (cat.set k row)

/-- The loop over patches (postprocess.py:283-292). -/
def putPatches (read : Int → Option (Patch K)) (n : Nat) (params : List String) :
    List Int → List (SampleRow K) → Except Err (List (SampleRow K))
  | [], cat => .ok cat
  | p :: ps, cat =>
    match read p with
    | none => .error .os
    | some s =>
      match putRows n params p s s.index 0 cat with
      | .error x => .error x
      | .ok cat => putPatches read n params ps cat

/-- `np.zeros(...)` with `cat["id"] = -1` (postprocess.py:281-282). -/
def freshRow [Zero K] (n : Nat) : SampleRow K := ⟨-1, 0, 0, 0, List.replicate n 0, fun _ => List.replicate n 0⟩

/-- The fixed columns (postprocess.py:276-277). -/
def infoCols : List String := ["id", "source_index", "patch_id", "wall", "lnp"]

/-- postprocess.py:272-292 for a catalog of `size` rows. -/
def sampleCatalog [Zero K] (read : Int → Option (Patch K)) (size : Nat) (patches : List Int) :
    Except Err (List (SampleRow K)) :=
  match patches with
  | [] => .error .index
  | p0 :: _ =>
    match read p0 with
    | none => .error .os
    | some s0 =>
      let params := s0.bands ++ s0.shapes
      if (infoCols ++ params).Nodup then
        putPatches read s0.nSample params patches (List.replicate size (freshRow s0.nSample))
      else .error .value

/-- `postsample_catalog` (postprocess.py:247-305).  `plog` and `nfinal` (the patch log and the number
of rows of the final catalog) come from the run's metadata; with explicit `patches` the list of patches
stands in for the final catalog. -/
def postsampleCatalog [Zero K] (read : Int → Option (Patch K)) (plog : List Int) (nfinal : Nat)
    (patches : Option (List Int)) : Except Err (List (SampleRow K)) :=
  match patches with
  | none => sampleCatalog read nfinal plog
  | some ps => sampleCatalog read ps.length ps

/-! ## find_multipatch -/

variable {R : Type}

/-- What is read of a file: `active["source_index"]` and the rows of `chaincat`. -/
structure ChainFile (R : Type) where
  index : List Int
  rows : List R

/-- `list.index`. -/
def indexOf (z : Int) : List Int → Option Nat
  | [] => none
  | x :: xs => if x = z then some 0 else (indexOf z xs).map (· + 1)

/-- The chain of one source in one entry of `samples` (postprocess.py:380-381).  The slice
`[ai:ai+1]` is one row. -/
def chainOf (samples : List (ChainFile R)) (sid pid : Int) : Except Err R :=
  match wrap samples.length pid with
  | none => .error .index
  | some k =>
    match samples[k]? with
    | none => .error .index
    | some s =>
      match indexOf sid s.index with
      | none => .error .value
      | some t =>
        match s.rows[t]? with
        | none => .error .index
        | some r => .ok r

/-- The chains of one source (postprocess.py:378-382).  `np.concatenate([])` raises `ValueError`. -/
def chainsOf (samples : List (ChainFile R)) (sid : Int) (pids : List Int) : Except Err (List R) :=
  match pids with
  | [] => .error .value
  | _ => pids.mapM (chainOf samples sid)

/-- The loop over the source log (postprocess.py:374-383). -/
def multi (samples : List (ChainFile R)) : List (Int × List Int) → Except Err (List (Int × List Int × List R))
  | [] => .ok []
  | (sid, pids) :: rest =>
    if pids.length = 1 then multi samples rest
    else
      match chainsOf samples sid pids with
      | .error x => .error x
      | .ok c =>
        match multi samples rest with
        | .error x => .error x
        | .ok r => .ok ((sid, pids, c) :: r)

/-- `find_multipatch` (postprocess.py:357-386): the files are loaded in the order of the patch log. -/
def findMultipatch (read : Int → Option (ChainFile R)) (plog : List Int) (slog : List (Int × List Int)) :
    Except Err (List (Int × List Int × List R)) :=
  match plog.mapM read with
  | none => .error .os
  | some samples => multi samples slog

/-! ## flux_unc_linear -/

/-- What is read of a file: the source indices, the bands, the precision matrices (if they were
stored) by band number, and the fluxes of the last sample by band. -/
structure PrecFile where
  index : List Int
  bands : List String
  precisions : Option (List (Matrix (Fin index.length) (Fin index.length) ℝ))
  flux : String → Fin index.length → ℝ

/-- The uncertainty columns; `none` is not-a-number. -/
abbrev Unc := String → Nat → Option ℝ

/-- `np.max(np.abs(bounds - flux), axis=0)` (postprocess.py:335-337). -/
noncomputable def defaultUnc (flux : ℝ) (b : Option ℝ × Option ℝ) : Option ℝ :=
  b.1.bind fun lo => b.2.map fun hi => max |lo - flux| |hi - flux|

/-- `np.sqrt`. -/
noncomputable def sqrtNan (x : ℝ) : Option ℝ := if 0 ≤ x then some (Real.sqrt x) else none

/-- `np.maximum(np.sqrt(np.diag(Sigma)), flux / snr_max)` for one source (postprocess.py:350-351). -/
noncomputable def sigmaOf (pinv : ∀ m : Nat, Matrix (Fin m) (Fin m) ℝ → Matrix (Fin m) (Fin m) ℝ) (snrMax : ℝ)
    (s : PrecFile) (P : Matrix (Fin s.index.length) (Fin s.index.length) ℝ) (b : String)
    (t : Fin s.index.length) : Option ℝ :=
  (sqrtNan (pinv s.index.length P t t)).map fun r => max r (s.flux b t / snrMax)

/-- `unc[b][inds] = sigma` (postprocess.py:352): `wrapped` are the row numbers. -/
noncomputable def putSigma (u : Unc) (b : String) (size : Nat) (index : List Int)
    (sigma : Fin index.length → Option ℝ) : Except Err Unc :=
  match index.mapM (wrap size) with
  | none => .error .index
  | some ks =>
    .ok fun c k =>
      if c = b then
        ((List.finRange index.length).foldl (fun acc t => if ks[t.val]? = some k then sigma t else acc) (u c k))
      else u c k

/-- The loop over the bands of a file (postprocess.py:348-352), from band number `i`. -/
noncomputable def putBands (pinv : ∀ m : Nat, Matrix (Fin m) (Fin m) ℝ → Matrix (Fin m) (Fin m) ℝ) (snrMax : ℝ)
    (cols : List String) (size : Nat) (s : PrecFile) : List String → Nat → Unc → Except Err Unc
  | [], _, u => .ok u
  | b :: bs, i, u =>
    match s.precisions with
    | none => .error .attribute
    | some Ps =>
      match Ps[i]? with
      | none => .error .index
      | some P =>
        if b ∈ cols then
          match putSigma u b size s.index (sigmaOf pinv snrMax s P b) with
          | .error x => .error x
          | .ok u => putBands pinv snrMax cols size s bs (i + 1) u
        else .error .key

/-- The loop over patches (postprocess.py:339-352). -/
noncomputable def putPrecs (pinv : ∀ m : Nat, Matrix (Fin m) (Fin m) ℝ → Matrix (Fin m) (Fin m) ℝ) (snrMax : ℝ)
    (cols : List String) (size : Nat) (read : Int → Option PrecFile) : List Int → Unc → Except Err Unc
  | [], u => .ok u
  | p :: ps, u =>
    match read p with
    | none => .error .os
    | some s =>
      match putBands pinv snrMax cols size s s.bands 0 u with
      | .error x => .error x
      | .ok u => putPrecs pinv snrMax cols size read ps u

/-- The default columns (postprocess.py:332-335). -/
noncomputable def defaults (bandlist : List String) (final : String → List ℝ) : Unc := fun b k =>
  if b ∈ bandlist then
    (((final b).zip (Bounds.fluxBounds 1 (final b)))[k]?).elim (some 0) fun p => defaultUnc p.1 p.2
  else some 0

/-- `flux_unc_linear` (postprocess.py:308-354), the flux columns.  `cols` are the columns of the final
catalog, `final` its flux columns, `size` its number of rows. -/
noncomputable def fluxUncLinear (pinv : ∀ m : Nat, Matrix (Fin m) (Fin m) ℝ → Matrix (Fin m) (Fin m) ℝ)
    (snrMax : ℝ) (read : Int → Option PrecFile) (plog : List Int) (bandlist cols : List String) (size : Nat)
    (final : String → List ℝ) : Except Err Unc :=
  if ∀ b ∈ bandlist, b ∈ cols then putPrecs pinv snrMax cols size read plog (defaults bandlist final)
  else .error .key

end Forcepho.Postprocess
