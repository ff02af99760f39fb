import Mathlib.Algebra.Order.Ring.Defs
import Mathlib.Algebra.Order.Ring.Int

/-!
# Model of `forcepho/superscene.py`, class `SuperScene`

The catalog (`sourcecat`), the counts, the logs, the bounds catalog and the covariance
matrices form the state.  `checkout_region`, `checkin_region` and `reset` are the transitions.

External calls are fields of `Env`; what is assumed of them is `Env.OK`:
* `cKDTree.query_ball_point` returns, in some order and without repetition, exactly the
  catalog indices within the radius (closed ball) of the centre;
* `np.argsort` returns some ordering of its argument that sorts the keys (ties in any order).
-/

set_option autoImplicit false

namespace Forcepho.SuperScene

/-- The parameter columns of a catalog row: `bands + SHAPE_COLS`
(superscene.py:107-109, sources.py `Galaxy.SHAPE_COLS`).
Simplification: the band columns are one list in band order. -/
structure Params (K : Type) where
  flux : List K
  ra : K
  dec : K
  q : K
  pa : K
  sersic : K
  rhalf : K
deriving DecidableEq

/-- One row of `sourcecat` (superscene.py:751-764).  `is_active`, `is_valid` are `int32`
columns holding 0/1 in the code and `Bool` here; counters are unbounded integers. -/
structure Row (K : Type) where
  id : Int
  sourceIndex : Nat
  isActive : Bool
  isValid : Bool
  nIter : Int
  nPatch : Int
  par : Params K
deriving DecidableEq

/-- The exceptions the modelled functions can raise. -/
inductive Err
  | indexError
  | valueError
deriving DecidableEq

/-- Constructor arguments that control patch boundaries and stopping (superscene.py:58-82). -/
structure Config (K : Type) where
  targetNiter : Int
  maxactive : Nat
  nscale : K
  boundaryRadius : K
  maxradius : K
  minradius : K

/-- External geometry and library calls.
* `dist c i` : `np.hypot(*(scene_coordinates[i] - sky_to_scene(*c)))` (superscene.py:163-185,
  208-227, 404-405), the distance in arcsec of the *original* position of source `i` to `c`.
* `ball c r` : `kdt.query_ball_point(sky_to_scene(*c), r)` (superscene.py:121, 393).
* `argsortBy key l` : `l[np.argsort(key[l])]` (superscene.py:415, 424, 440). -/
structure Env (K : Type) where
  dist : K × K → Nat → K
  ball : K × K → K → List Nat
  argsortBy : (Nat → K) → List Nat → List Nat

/-- What is assumed of the external calls for a catalog of `n` sources. -/
structure Env.OK {K : Type} [LinearOrder K] (E : Env K) (n : Nat) : Prop where
  ball_nodup : ∀ c r, (E.ball c r).Nodup
  mem_ball : ∀ c r i, i ∈ E.ball c r ↔ i < n ∧ E.dist c i ≤ r
  argsort_perm : ∀ key l, (E.argsortBy key l).Perm l
  argsort_sorted : ∀ key l, (E.argsortBy key l).Pairwise (fun i j => key i ≤ key j)

/-- The mutable attributes of a `SuperScene`.  `B` is the type of one row of
`bounds_catalog`, `C` that of one covariance matrix; both are opaque to these methods.
`sourcelog` is a dictionary from source index to a list of task ids, kept as an
association list. -/
structure State (K B C : Type) where
  rows : List (Row K)
  nActive : Int
  nFixed : Int
  bounds : List B
  covs : List C
  sourcelog : List (Nat × List String)
  patchlog : List String

variable {K B C : Type}

/-- numpy `a[inds] = f(a[inds])` for an elementwise update that does not depend on the
position inside `inds` (repeated indices are updated once, as numpy does). -/
def updAt {α : Type} (l : List α) (inds : List Nat) (f : α → α) : List α :=
  l.mapIdx fun i a => if i ∈ inds then f a else a

/-- numpy `a[inds] = vals` : assignments happen left to right (a repeated index keeps the
last value). -/
def assignAt {α : Type} (l : List α) : List (Nat × α) → List α
  | [] => l
  | (i, v) :: t => assignAt (l.set i v) t

/-- `SuperScene.set_catalog` together with `ingest` and `__init__`
(superscene.py:58-82, 115-134, 139-161): indices are set to `arange`, all rows become valid
and inactive, counts are zero, logs are empty, every covariance is the identity `one`.
Not modelled: the column-name assertions; `make_bounds` is modelled elsewhere, here the
bounds rows are an argument. -/
def ingest (cat : List (Row K)) (bounds : List B) (one : C) : State K B C where
  rows := cat.mapIdx fun i r => { r with sourceIndex := i, isValid := true, isActive := false }
  nActive := 0
  nFixed := 0
  bounds := bounds
  covs := cat.map fun _ => one
  sourcelog := []
  patchlog := []

/-- `SuperScene.undone` (superscene.py:103-105). -/
def undone (cfg : Config K) (s : State K B C) : Bool :=
  s.rows.any fun r => decide (|r.nIter| < cfg.targetNiter)

/-- `SuperScene.reset` (superscene.py:362-370). -/
def reset (s : State K B C) : State K B C :=
  { s with
    rows := s.rows.map fun r =>
      { r with isValid := true, isActive := false, nIter := 0, nPatch := 0 }
    nActive := 0
    nFixed := 0 }

section checkout
variable [CommRing K] [LinearOrder K]

/-- `rhalf` column of row `i`.  Only used for indices produced by `ball`, which are in range
(`Env.OK.mem_ball`); the default is never reached there. -/
def rhalfOf (s : State K B C) (i : Nat) : K :=
  match s.rows[i]? with
  | some r => r.par.rhalf
  | none => 0

/-- `is_active` column of row `i` (same remark). -/
def activeOf (s : State K B C) (i : Nat) : Bool :=
  match s.rows[i]? with
  | some r => r.isActive
  | none => false

/-- `np.max` of a non-empty list. -/
def maxOf (x : K) (l : List K) : K := l.foldl max x

/-- `SuperScene.get_circular_scene` (superscene.py:372-440).
`error indexError`: an empty candidate list is a float array and cannot be used as an index
(line 398).  `error valueError`: `.max()` of an empty array (line 429).
`ok none`: some candidate is active (lines 398-399).
Otherwise radius (arcsec), active indices and fixed indices. -/
def getCircularScene (E : Env K) (cfg : Config K) (s : State K B C) (c : K × K) :
    Except Err (Option (K × List Nat × List Nat)) :=
  let kinds := E.ball c cfg.boundaryRadius
  if kinds = [] then .error .indexError
  else if kinds.any (activeOf s) then .ok none
  else
    let outer := fun i => E.dist c i + cfg.nscale * rhalfOf s i
    let inner := fun i => E.dist c i - cfg.nscale * rhalfOf s i
    let order := E.argsortBy outer kinds
    let nInside := kinds.countP (fun i => decide (outer i < cfg.maxradius))
    let nAct := min cfg.maxactive nInside
    let act := order.take nAct
    let finds := order.drop nAct
    match act.map outer with
    | [] => .error .valueError
    | x :: xs =>
      let radius := max cfg.minradius (maxOf x xs)
      let fix := (finds.filter (fun i => decide (inner i < radius))).take
        (min cfg.maxactive finds.length)
      let fix := if fix.length = 0 then finds.take 1 else fix
      .ok (some (radius, act, fix))

/-- Outcome of `checkout_region` as seen by the caller. -/
inductive Outcome (K : Type)
  | raised (e : Err)
  | invalid
  | region (center : K × K) (radius : K) (active fixed : List (Row K))

/-- numpy fancy indexing `sourcecat[inds]` for in-range indices (copies of the rows). -/
def takeRows {α : Type} (rows : List α) (inds : List Nat) : List α :=
  inds.filterMap fun i => rows[i]?

/-- `SuperScene.checkout_region` with seed `k` (superscene.py:229-267, 442-465); `k` is either
the caller's `seed_index` or the randomly drawn source.  A seed outside the catalog raises
`IndexError` (line 464).  The region radius is kept in arcsec (the code divides by 3600). -/
def checkout (E : Env K) (cfg : Config K) (s : State K B C) (k : Nat) :
    State K B C × Outcome K :=
  match s.rows[k]? with
  | none => (s, .raised .indexError)
  | some seed =>
    let c := (seed.par.ra, seed.par.dec)
    match getCircularScene E cfg s c with
    | .error e => (s, .raised e)
    | .ok none => (s, .invalid)
    | .ok (some (radius, act, fix)) =>
      let rows1 := updAt s.rows act fun r => { r with isActive := true }
      let rows2 := updAt rows1 act fun r => { r with isValid := false }
      let rows3 := updAt rows2 fix fun r => { r with isValid := false }
      let s' := { s with
        rows := rows3
        nActive := s.nActive + act.length
        nFixed := s.nFixed + fix.length }
      (s', .region c radius (takeRows rows3 act) (takeRows rows3 fix))

end checkout

/-- Add a task id to the per-source log (superscene.py:340-345). -/
def logAppend (log : List (Nat × List String)) (sid : Nat) (pid : String) :
    List (Nat × List String) :=
  if log.any (fun e => e.1 = sid) then
    log.map fun e => if e.1 = sid then (e.1, e.2 ++ [pid]) else e
  else log ++ [(sid, [pid])]

/-- The value of `sourcelog[sid]`, if the key is present. -/
def logGet (log : List (Nat × List String)) (sid : Nat) : Option (List String) :=
  (log.find? (fun e => e.1 = sid)).map (·.2)

/-- numpy assignment of `vals` to `n` selected rows: equal length, or length one broadcast,
otherwise `ValueError`. -/
def bcast {α : Type} (vals : List α) (n : Nat) : Option (List α) :=
  if vals.length = n then some vals
  else match vals with
    | [v] => some (List.replicate n v)
    | _ => none

/-- Arguments of `checkin_region` (superscene.py:269-270).  The optional structured arrays are
lists of rows; only the source index of the fixed rows is read. -/
structure CheckinArgs (K B C : Type) where
  active : List (Row K)
  fixed : Option (List (Row K))
  niter : Int
  blockCovs : Option (List C)
  newBounds : Option (List B)
  taskID : Option String

/-- `fixed["source_index"]` (superscene.py:305-308); empty when `fixed` is `None`. -/
def CheckinArgs.fixIdx (a : CheckinArgs K B C) : List Nat :=
  match a.fixed with
  | some f => f.map (·.sourceIndex)
  | none => []

/-- `active["source_index"]` (superscene.py:303). -/
def CheckinArgs.actIdx (a : CheckinArgs K B C) : List Nat := a.active.map (·.sourceIndex)

/-- The row updates of `checkin_region` up to line 319: parameters of the supplied rows are
stored by source index, `n_iter`, `is_active`, `n_patch`, `is_valid` of the active sources are
updated (superscene.py:311-319). -/
def checkinRows (rows : List (Row K)) (active : List (Row K)) (niter : Int) : List (Row K) :=
  let ai := active.map (·.sourceIndex)
  let rows1 := assignAt rows
    (active.filterMap fun r =>
      (rows[r.sourceIndex]?).map fun old => (r.sourceIndex, { old with par := r.par }))
  let rows2 := updAt rows1 ai fun r => { r with nIter := r.nIter + niter }
  let rows3 := updAt rows2 ai fun r => { r with isActive := false }
  let rows4 := updAt rows3 ai fun r =>
    { r with nPatch := r.nPatch + (if niter > 0 then 1 else 0) }
  updAt rows4 ai fun r => { r with isValid := true }

/-- superscene.py:326-327; `none` is the `ValueError` of a shape mismatch. -/
def putBounds (bounds : List B) (ai : List Nat) : Option (List B) → Option (List B)
  | none => some bounds
  | some nb => (bcast nb ai.length).map fun nb' => assignAt bounds (ai.zip nb')

/-- superscene.py:330-335: a shape mismatch is caught and reported. -/
def putCovs (covs : List C) (ai : List Nat) : Option (List C) → List C
  | none => covs
  | some bc => match bcast bc ai.length with
    | none => covs
    | some bc' => assignAt covs (ai.zip bc')

/-- superscene.py:338-345, the per-source log. -/
def putLog (log : List (Nat × List String)) (ai : List Nat) :
    Option String → List (Nat × List String)
  | none => log
  | some pid => ai.foldl (fun l k => logAppend l k pid) log

/-- `SuperScene.checkin_region` (superscene.py:269-349).  Returns the state after the call and
the exception, if one was raised; the statements before the raising one have taken effect.
Not modelled: `flush` (writing to disk), negative source indices (numpy would wrap them). -/
def checkin (s : State K B C) (a : CheckinArgs K B C) : State K B C × Option Err :=
  let ai := a.actIdx
  let fi := a.fixIdx
  -- lines 312-313: raises IndexError before anything is written
  if ai.any (fun i => decide (s.rows.length ≤ i)) then (s, some .indexError)
  else
    let rows5 := checkinRows s.rows a.active a.niter
    -- line 320
    if fi.any (fun i => decide (s.rows.length ≤ i)) then
      ({ s with rows := rows5 }, some .indexError)
    else
      let rows6 := updAt rows5 fi fun r => { r with isValid := true }
      let s1 := { s with
        rows := rows6
        nActive := s.nActive - ai.length
        nFixed := s.nFixed - fi.length }
      match putBounds s.bounds ai a.newBounds with
      | none => (s1, some .valueError)
      | some bounds =>
        ({ s1 with
            bounds := bounds
            covs := putCovs s.covs ai a.blockCovs
            sourcelog := putLog s.sourcelog ai a.taskID
            -- line 346
            patchlog := s.patchlog ++ a.taskID.toList }, none)

/-! ## Histories

The dispatcher checks regions out, a worker returns the same rows with new parameter values,
and the region is checked in.  `Sys` adds the list of outstanding regions to the state, as the
rows that `checkout_region` returned to the caller. -/

/-- A region handed to a worker: what `checkout_region` returned. -/
structure Held (K : Type) where
  active : List (Row K)
  fixed : List (Row K)

/-- Super-scene state together with the regions handed out and not yet returned. -/
structure Sys (K B C : Type) where
  st : State K B C
  out : List (Held K)

/-- One call made by the dispatcher. -/
inductive Op (K B C : Type)
  /-- check out a region seeded by source `k` -/
  | checkout (k : Nat)
  /-- check in the `j`-th outstanding region with new parameters for its active rows -/
  | checkin (j : Nat) (pars : List (Params K)) (niter : Int)
      (blockCovs : Option (List C)) (newBounds : Option (List B)) (taskID : Option String)

/-- The record of one completed check-in, for stating history properties. -/
structure Event where
  active : List Nat
  niter : Int
  taskID : Option String

/-- The check-in call for a held region whose worker returned parameters `pars`
(dispatcher.py:203-230: `fixed` is passed on, only parameters are changed by the worker). -/
def heldArgs (h : Held K) (pars : List (Params K)) (niter : Int)
    (blockCovs : Option (List C)) (newBounds : Option (List B)) (taskID : Option String) :
    CheckinArgs K B C where
  active := List.zipWith (fun r p => { r with par := p }) h.active pars
  fixed := some h.fixed
  niter := niter
  blockCovs := blockCovs
  newBounds := newBounds
  taskID := taskID

instance {α : Type} (o : Option (List α)) (p : List α → Prop) [DecidablePred p] :
    Decidable (∀ b, o = some b → p b) :=
  match o with
  | none => isTrue (by simp)
  | some b => decidable_of_iff (p b) (by simp)

/-- One step of a history.  A check-in refers to an outstanding region and must supply one
parameter set per active row and new bounds of a fitting shape; other requests are ignored
(not a use the dispatcher makes).  The event is recorded if the check-in returned. -/
def step [CommRing K] [LinearOrder K] (E : Env K) (cfg : Config K) (y : Sys K B C) :
    Op K B C → Sys K B C × Option Event
  | .checkout k =>
    match checkout E cfg y.st k with
    | (s', .region _ _ act fix) => ({ st := s', out := y.out ++ [⟨act, fix⟩] }, none)
    | (s', _) => ({ y with st := s' }, none)
  | .checkin j pars niter bc nb tid =>
    match y.out[j]? with
    | none => (y, none)
    | some h =>
      if pars.length = h.active.length ∧
          (∀ b, nb = some b → b.length = h.active.length ∨ b.length = 1) then
        match checkin y.st (heldArgs h pars niter bc nb tid) with
        | (s', none) => ({ st := s', out := y.out.eraseIdx j },
            some ⟨h.active.map (·.sourceIndex), niter, tid⟩)
        | (s', some _) => ({ y with st := s' }, none)
      else (y, none)

/-- Run a history, collecting the completed check-ins. -/
def run [CommRing K] [LinearOrder K] (E : Env K) (cfg : Config K) :
    Sys K B C → List (Op K B C) → Sys K B C × List Event
  | y, [] => (y, [])
  | y, op :: ops =>
    let (y', e) := step E cfg y op
    let (z, es) := run E cfg y' ops
    (z, e.toList ++ es)

end Forcepho.SuperScene
