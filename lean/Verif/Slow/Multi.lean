import Verif.Slow.Props
import Verif.Sources.Props

/-! # Several stamps at once (forcepho/slow/likelihood.py:23-175) and the simple PSF (slow/psf.py)

Derivatives may be NaN; a NaN is `none` and stays a NaN when something is added to it. -/

set_option autoImplicit false

namespace Forcepho.Multi

open Forcepho.Kernel (Param)
open Forcepho.Sources (Source Scene Cls Attr Err paramIndices setAll nshape npos)

variable {K : Type}

/-- A work plan as `plan_sources` and `lnlike_multi` see it: the filter of its stamp, the coverage method of
its stamp (stamp.py:96-101), and what `lnlike` returns for lists of active and fixed sources: the
log-likelihood and seven derivatives for each active source. -/
structure Plan (K : Type) where
  filtername : String
  coverage : Source K → Int
  lnlike : List (Source K) → List (Source K) → K × List (Option (Param → K))

/-- The columns of the `(nactive, NDERIV)` array of derivatives (gaussmodel.py:283-332, likelihood.py:20). -/
def gradParams : List Param := [.flux, .ra, .dec, .q, .pa, .sersic, .rh]

/-- `(i * NDERIV + np.arange(NDERIV))[source.use_gradients]` (likelihood.py:169, sources.py:332-338). -/
def gradInds (i : Nat) (c : Cls) : List Nat :=
  ((List.range 7).map fun k => i * 7 + k).take (1 + npos + nshape c)

/-- The loop of `plan_sources` (likelihood.py:148-169): `j` counts all sources, `i` the active ones.
Converting a source looks up the stamp's filter (gaussmodel.py:116-120), which raises `ValueError` if the
source does not have it. -/
def planLoop (sc : Scene K) (pl : Plan K) : Nat → Nat → List (Source K) →
    Except Err (List (Source K) × List (Source K) × List Nat × List Nat)
  | _, _, [] => .ok ([], [], [], [])
  | j, i, s :: t =>
    if pl.coverage s ≤ 0 then planLoop sc pl (j + 1) i t
    else match s.filterIndex pl.filtername with
      | .error e => .error e
      | .ok _ =>
        if pl.coverage s = 1 then
          match planLoop sc pl (j + 1) i t with
          | .error e => .error e
          | .ok (a, f, ti, gi) => .ok (a, s :: f, ti, gi)
        else match paramIndices sc j (some pl.filtername) with
          | .error e => .error e
          | .ok th =>
            match planLoop sc pl (j + 1) (i + 1) t with
            | .error e => .error e
            | .ok (a, f, ti, gi) => .ok (s :: a, f, th ++ ti, gradInds i s.cls ++ gi)

/-- `plan_sources` (likelihood.py:110-175), with the assertion that the indices are different. -/
def planSources (sc : Scene K) (pl : Plan K) :
    Except Err (List (Source K) × List (Source K) × List Nat × List Nat) :=
  match planLoop sc pl 0 0 sc with
  | .error e => .error e
  | .ok r => if r.2.2.1.Nodup then .ok r else .error .assertionError

/-- `lnp_stamp_grad.flat[k]` of an array with a row of seven per active source; `none` is an
`IndexError`, `some none` a NaN. -/
def flatAt (g : List (Option (Param → K))) (k : Nat) : Option (Option K) :=
  match g[k / 7]?, gradParams[k % 7]? with
  | some r, some p => some (r.map fun f => f p)
  | _, _ => none

/-- Addition of numbers that may be NaN. -/
def nadd [Add K] : Option K → Option K → Option K
  | some a, some b => some (a + b)
  | _, _ => none

/-- `g[inds] += vals` for different indices (likelihood.py:67); an index out of range raises. -/
def addAt [Add K] (g : List (Option K)) : List (Nat × Option K) → Option (List (Option K))
  | [] => some g
  | (i, v) :: t =>
    match g[i]? with
    | none => none
    | some x => addAt (g.set i (nadd x v)) t

/-- `flat[inds]`; raises if an index is out of range. -/
def gather (g : List (Option (Param → K))) : List Nat → Option (List (Option K))
  | [] => some []
  | k :: t =>
    match flatAt g k with
    | none => none
    | some x => match gather g t with
      | none => none
      | some xs => some (x :: xs)

/-- The loop over plans (likelihood.py:56-66).  The index lists of `plan_sources` have equal lengths, so
numpy does not broadcast. -/
def plansLoop [Add K] (sc : Scene K) : List (Plan K) → K → List (Option K) →
    Except Err (K × List (Option K))
  | [], lnp, g => .ok (lnp, g)
  | pl :: t, lnp, g =>
    match planSources sc pl with
    | .error e => .error e
    | .ok (a, f, ti, gi) =>
      let r := pl.lnlike a f
      match gather r.2 gi with
      | none => .error .indexError
      | some vals =>
        match addAt g (ti.zip vals) with
        | none => .error .indexError
        | some g' => plansLoop sc t (lnp + r.1) g'

/-- `lnlike_multi` (likelihood.py:23-72): log-likelihood and gradient. -/
def lnlikeMulti [Add K] [Zero K] (theta : List K) (sc : Scene K) (plans : List (Plan K)) :
    Except Err (K × List (Option K)) :=
  match setAll sc theta with
  | (_, some e) => .error e
  | (sc', none) => plansLoop sc' plans 0 (theta.map fun _ => some 0)

/-- `negative_lnlike_multi` with gradient (likelihood.py:75-82). -/
def negativeLnlikeMulti [Ring K] (theta : List K) (sc : Scene K) (plans : List (Plan K)) :
    Except Err (K × List (Option K)) :=
  match lnlikeMulti theta sc plans with
  | .error e => .error e
  | .ok (l, g) => .ok (-l, g.map fun x => x.map fun y => -y)

end Forcepho.Multi
