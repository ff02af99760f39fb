import Verif.SuperScene.Model
import Mathlib.Algebra.Order.Field.Basic

/-!
# Model of `LinkedSuperScene` (`forcepho/superscene.py:495-748`)

`grow_source` is modelled over an arbitrary neighbour function; `find_overlaps` provides the
one used by the code.
-/

set_option autoImplicit false

namespace Forcepho.Linked

open Forcepho.SuperScene

variable {K B C : Type}

/-- The inner `for s in seeds` loop of `grow_source` (superscene.py:549-556): collect the
neighbours of the seeds, skipping those already collected. -/
def collectLeaves (adj : Nat → List Nat) : List Nat → List Nat → List Nat
  | [], leaves => leaves
  | s :: seeds, leaves =>
    let buds := (adj s).filter fun b => decide (b ∉ leaves)
    collectLeaves adj seeds (leaves ++ buds)

/-- The `while True` loop of `grow_source` (superscene.py:547-564).  `fuel` bounds the number of
passes; `none` means it was not enough (proved impossible for `fuel` greater than the catalog
size). -/
def growLoop (adj : Nat → List Nat) : Nat → List Nat → List Nat → Option (List Nat)
  | 0, _, _ => none
  | fuel + 1, members, seeds =>
    let members := members ++ seeds
    let leaves := (collectLeaves adj seeds []).filter fun l => decide (l ∉ members)
    if leaves.length = 0 then some members else growLoop adj fuel members leaves

/-- `LinkedSuperScene.grow_source` (superscene.py:529-565). -/
def growSource (adj : Nat → List Nat) (fuel : Nat) (index : Nat) : Option (List Nat) :=
  growLoop adj fuel [] [index]

/-- The loop of `make_group_catalog` (superscene.py:742-747) over the indices `todo`, with the
group array so far and the next group number.  Group ids are integers (floats in the code). -/
def groupLoop (adj : Nat → List Nat) (fuel : Nat) :
    List Nat → List Int → Nat → Option (List Int × Nat)
  | [], gid, gind => some (gid, gind)
  | i :: todo, gid, gind =>
    match gid[i]? with
    | none => none
    | some g =>
      if 0 ≤ g then groupLoop adj fuel todo gid gind
      else match growSource adj fuel i with
        | none => none
        | some assoc =>
          groupLoop adj fuel todo (updAt gid assoc fun _ => (gind : Int)) (gind + 1)

/-- `LinkedSuperScene.make_group_catalog` (superscene.py:730-748). -/
def makeGroupCatalog (adj : Nat → List Nat) (n : Nat) : Option (List Int × Nat) :=
  groupLoop adj (n + 1) (List.range n) (List.replicate n (-1)) 0

/-- External geometry for the linked scene.  `P` is the type of positions in scene coordinates.
* `coord i` : `scene_coordinates[i]`
* `dist p i` : `np.hypot(*(scene_coordinates[i] - p))`
* `ball p r` : `kdt.query_ball_point(p, r)`
* `argsortBy key l` : `l[np.argsort(key[l])]`
* `meanCenter rows` : `sky_to_scene` of the mean position of `rows` (superscene.py:611-612) -/
structure Env (P K : Type) where
  coord : Nat → P
  dist : P → Nat → K
  ball : P → K → List Nat
  argsortBy : (Nat → K) → List Nat → List Nat
  meanCenter : List (Row K) → P

/-- Assumptions on the external calls, for `n` sources. -/
structure Env.OK {P K : Type} [LinearOrder K] (E : Env P K) (n : Nat) : Prop where
  ball_nodup : ∀ c r, (E.ball c r).Nodup
  mem_ball : ∀ c r i, i ∈ E.ball c r ↔ i < n ∧ E.dist c i ≤ r
  argsort_perm : ∀ key l, (E.argsortBy key l).Perm l
  argsort_sorted : ∀ key l, (E.argsortBy key l).Pairwise (fun i j => key i ≤ key j)

/-- Settings (superscene.py:58-82, 501-527).  `roi = none` is the default, in which case the
radius of influence *is* the `rhalf` column (a view, so check-ins change it). -/
structure Config (K : Type) where
  maxactive : Nat
  boundaryRadius : K
  minradius : K
  buffer : K
  strict : Bool
  roi : Option (Nat → K)

variable {P : Type} [Field K] [LinearOrder K]

/-- Radius of influence of source `i` in the current state (superscene.py:520-527). -/
def roiOf (cfg : Config K) (s : State K B C) (i : Nat) : K :=
  match cfg.roi with
  | some f => f i
  | none => rhalfOf s i

/-- The overlap test of `find_overlaps` (superscene.py:704-705) with `R = radius + roi`.  A zero
denominator gives `inf` or `nan` in numpy, for which the comparison is false. -/
def overlapTest (d R : K) : Bool := decide (R ≠ 0 ∧ d / R < 1 ∧ 0 ≤ d / R)

/-- `LinkedSuperScene.find_overlaps` (superscene.py:677-711); `seed = none` is `seed_index=-1`. -/
def findOverlaps (E : Env P K) (cfg : Config K) (s : State K B C) (center : P) (radius : K)
    (seed : Option Nat) (sort : Bool) : List Nat :=
  let kinds := E.ball center (radius + cfg.boundaryRadius)
  let overlaps := kinds.filter fun i =>
    overlapTest (E.dist center i) (radius + roiOf cfg s i) && decide (some i ≠ seed)
  if sort then
    E.argsortBy (fun i => E.dist center i / (radius + roiOf cfg s i)) overlaps
  else overlaps

/-- The neighbour function used by `grow_source` (superscene.py:552-553). -/
def adjOf (E : Env P K) (cfg : Config K) (s : State K B C) (i : Nat) : List Nat :=
  findOverlaps E cfg s (E.coord i) (roiOf cfg s i) (some i) false

/-- The `for s in candidates` loop of `grow_scene` (superscene.py:593-605). -/
def fillActive (grow : Nat → Option (List Nat)) (maxactive : Nat) (strict : Bool) :
    List Nat → List Nat → Option (List Nat)
  | [], act => some act
  | c :: cands, act =>
    if c ∈ act then fillActive grow maxactive strict cands act
    else
      let nAvail := maxactive - act.length
      match grow c with
      | none => none
      | some toAdd =>
        if nAvail < toAdd.length then
          if strict = false ∨ act.length = 0 then some (act ++ toAdd.take nAvail) else some act
        else fillActive grow maxactive strict cands (act ++ toAdd)

/-- `LinkedSuperScene.grow_scene` (superscene.py:567-626).  `ok none` is the refused case,
`error` the empty active list (`np.max` of an empty array, or an empty float index array).
The region returned is summarised by its radius in arcsec. -/
def growScene (E : Env P K) (cfg : Config K) (s : State K B C) (seed : Nat)
    (maxFixed : Option Nat) : Except Err (Option (K × List Nat × List Nat)) :=
  if E.ball (E.coord seed) (cfg.boundaryRadius + cfg.boundaryRadius) = [] then .error .indexError
  else
  let candidates := findOverlaps E cfg s (E.coord seed) cfg.boundaryRadius none true
  if candidates.any (activeOf s) then .ok none
  else match fillActive (growSource (adjOf E cfg s) (s.rows.length + 1)) cfg.maxactive cfg.strict
      candidates [] with
    | none => .error .indexError
    | some act =>
      let center := E.meanCenter (takeRows s.rows act)
      match act.map fun i => E.dist center i + roiOf cfg s i + cfg.buffer with
      | [] => .error .valueError
      | x :: xs =>
        let radius := max cfg.minradius (maxOf x xs)
        let mf := maxFixed.getD cfg.maxactive
        let inregion := findOverlaps E cfg s center (6 / 5 * radius) none true
        let fix := (inregion.filter fun i => decide (i ∉ act)).take mf
        .ok (some (radius, act, fix))

/-- `LinkedSuperScene.checkout_region` (superscene.py:628-675).  The rows of the fixed sources
are copied before the flags change, those of the active sources after; an empty fixed set is
returned as `None`. -/
def checkout (E : Env P K) (cfg : Config K) (s : State K B C) (seed : Nat)
    (maxFixed : Option Nat) :
    State K B C × Except Err (Option (List (Row K) × Option (List (Row K)))) :=
  if s.rows.length ≤ seed then (s, .error .indexError)
  else match growScene E cfg s seed maxFixed with
  | .error e => (s, .error e)
  | .ok none => (s, .ok none)
  | .ok (some (_, act, fix)) =>
    let fixed := if fix.length = 0 then none else some (takeRows s.rows fix)
    let rows1 := updAt s.rows act fun r => { r with isActive := true }
    let rows2 := updAt rows1 act fun r => { r with isValid := false }
    let rows3 := updAt rows2 fix fun r => { r with isValid := false }
    let s' := { s with
      rows := rows3
      nActive := s.nActive + act.length
      nFixed := s.nFixed + fix.length }
    (s', .ok (some (takeRows rows3 act, fixed)))

/-- A region handed out by the linked scene. -/
structure Held (K : Type) where
  active : List (Row K)
  fixed : Option (List (Row K))

/-- State and outstanding regions. -/
structure Sys (K B C : Type) where
  st : State K B C
  out : List (Held K)

/-- Calls made by a driver. -/
inductive Op (K B C : Type)
  | checkout (seed : Nat) (maxFixed : Option Nat)
  | checkin (j : Nat) (pars : List (Params K)) (niter : Int)
      (blockCovs : Option (List C)) (taskID : Option String)

/-- The check-in of a held region with new parameters (the inherited `checkin_region`). -/
def heldArgs (h : Held K) (pars : List (Params K)) (niter : Int)
    (blockCovs : Option (List C)) (taskID : Option String) : CheckinArgs K B C where
  active := List.zipWith (fun r p => { r with par := p }) h.active pars
  fixed := h.fixed
  niter := niter
  blockCovs := blockCovs
  newBounds := none
  taskID := taskID

/-- One call. -/
def step (E : Env P K) (cfg : Config K) (y : Sys K B C) : Op K B C → Sys K B C
  | .checkout k mf =>
    match checkout E cfg y.st k mf with
    | (s', .ok (some (act, fix))) => { st := s', out := y.out ++ [⟨act, fix⟩] }
    | (s', _) => { y with st := s' }
  | .checkin j pars niter bc tid =>
    match y.out[j]? with
    | none => y
    | some h =>
      if pars.length = h.active.length then
        match checkin y.st (heldArgs h pars niter bc tid) with
        | (s', none) => { st := s', out := y.out.eraseIdx j }
        | (s', some _) => { y with st := s' }
      else y

/-- A history of calls. -/
def run (E : Env P K) (cfg : Config K) (y : Sys K B C) (ops : List (Op K B C)) : Sys K B C :=
  ops.foldl (step E cfg) y

end Forcepho.Linked
