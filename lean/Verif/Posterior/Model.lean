import Mathlib.Data.List.Basic
import Mathlib.Algebra.Field.Basic
import Verif.Sources.Props

/-! # The caching posterior object and its stacked gradient (forcepho/model.py)

The caller's parameter arrays live in a heap indexed by addresses, because the code stores a
*reference* to the array it evaluated last.  The likelihood, prior and transform are one function
`F sampling z`: what an evaluation without any cache computes (or `none` if it raises).
Logging, printing and the debugging branches are left out. -/

set_option autoImplicit false

namespace Forcepho.Posterior

variable {K R : Type}

/-- What the posterior object depends on. -/
structure Env (K R : Type) where
  /-- numpy's elementwise `!=` (for IEEE numbers: true on NaN, false on 0.0 and -0.0). -/
  ne : K → K → Bool
  /-- the initial value of `_z`, `-99` (model.py:287, 433). -/
  sentinel : K
  /-- a cache-free evaluation, with or without the volume correction (model.py:302-368). -/
  F : Bool → List K → Option (R × List R)
  /-- `self.ndof` (model.py:63). -/
  ndof : R

/-- `np.any(z != w)` for arrays of one shape. -/
def anyNe (e : Env K R) (z w : List K) : Bool := (z.zip w).any fun p => e.ne p.1 p.2

/-- `np.any(z != -99)`: the scalar broadcasts. -/
def anyNeSentinel (e : Env K R) (z : List K) : Bool := z.any fun x => e.ne x e.sentinel

/-- The object and the caller's arrays. -/
structure State (K R : Type) where
  heap : Nat → List K
  /-- the array `_z` refers to; `none` before the first evaluation. -/
  zref : Option Nat
  /-- `_lnp`, absent before the first evaluation. -/
  lnp : Option R
  /-- `_lnp_grad`. -/
  grad : Option (List R)
  ncall : Nat
  /-- the attribute `sampling` (model.py:285). -/
  sampling : Bool
  /-- whether the caller holds a reference to the current `_lnp_grad`. -/
  held : Bool

/-- A call on the object or an action of the caller. -/
inductive Op (K R : Type) where
  /-- `lnprob(z)` (model.py:100-118) -/
  | lnprob (a : Nat)
  /-- `lnprob_grad(z)` (model.py:120-140) -/
  | lnprobGrad (a : Nat)
  /-- `lnprob_and_grad(z)` (model.py:214-220) -/
  | both (a : Nat)
  /-- `nll(z)` (model.py:192-202) -/
  | nll (a : Nat)
  /-- `nll_nograd(z)` (model.py:204-212) -/
  | nllNoGrad (a : Nat)
  /-- the caller writes into one of its arrays in place -/
  | write (a : Nat) (v : List K)
  /-- the caller sets the attribute `sampling` (as in tasks.py:41, 44) -/
  | setSampling (b : Bool)
  /-- the caller writes into the gradient array it was given -/
  | smash (g : List R)
  /-- `residuals(q)` (model.py:389-405): sets the scene, does not touch the cache -/
  | residuals (q : List K)

/-- What a call returns. -/
inductive Ans (R : Type) where
  | unit
  | val (x : R)
  | vec (g : List R)
  | pair (x : R) (g : List R)
  /-- `AttributeError`: `_lnp` is read before any evaluation. -/
  | attributeError
  /-- the evaluation itself raised -/
  | raised

/-- `if np.any(z != self._z)` (model.py:116, 138, 198, 210, 218). -/
def stale (e : Env K R) (s : State K R) (a : Nat) : Bool :=
  match s.zref with
  | none => anyNeSentinel e (s.heap a)
  | some b => anyNe e (s.heap a) (s.heap b)

/-- `evaluate` (model.py:302-368, 436-465): on success stores the values and a reference to the
caller's array; an exception leaves the cache as it was. -/
def evaluate (e : Env K R) (s : State K R) (a : Nat) : Option (State K R) :=
  match e.F s.sampling (s.heap a) with
  | none => none
  | some (l, g) => some { s with zref := some a, lnp := some l, grad := some g,
                                 ncall := s.ncall + 1, held := false }

/-- The common first half of all queries. -/
def refresh (e : Env K R) (s : State K R) (a : Nat) : Option (State K R) :=
  if stale e s a then evaluate e s a else some s

/-- Read both cached values. -/
def readCache (s : State K R) : Option (R × List R) :=
  match s.lnp, s.grad with
  | some l, some g => some (l, g)
  | _, _ => none

/-- Answer a query: `use` builds the answer, `keep` says whether the stored gradient object
itself is handed out. -/
def query (e : Env K R) (s : State K R) (a : Nat) (use : R → List R → Ans R) (keep : Bool) :
    State K R × Ans R :=
  match refresh e s a with
  | none => (s, .raised)
  | some s' =>
    match readCache s' with
    | none => (s', .attributeError)
    | some (l, g) => ({ s' with held := s'.held || keep }, use l g)

variable [Neg R] [Div R]

/-- One step. -/
def step (e : Env K R) (s : State K R) : Op K R → State K R × Ans R
  | .lnprob a => query e s a (fun l _ => .val l) false
  | .lnprobGrad a => query e s a (fun _ g => .vec g) true
  | .both a => query e s a (fun l g => .pair l g) true
  | .nll a => query e s a (fun l g => .pair (-l / e.ndof) (g.map fun x => -x / e.ndof)) false
  | .nllNoGrad a => query e s a (fun l _ => .val (-l / e.ndof)) false
  | .write a v => ({ s with heap := Function.update s.heap a v }, .unit)
  | .setSampling b => ({ s with sampling := b }, .unit)
  | .smash g => (if s.held then { s with grad := some g } else s, .unit)
  | .residuals _ => (s, .unit)

/-- A history of calls. -/
def run (e : Env K R) (s : State K R) : List (Op K R) → State K R × List (Ans R)
  | [] => (s, [])
  | op :: ops =>
    let r := step e s op
    let r' := run e r.1 ops
    (r'.1, r.2 :: r'.2)

/-- A new object (model.py:271-300). -/
def init (heap : Nat → List K) (sampling : Bool) : State K R :=
  { heap := heap, zref := none, lnp := none, grad := none, ncall := 0, sampling := sampling,
    held := false }

end Forcepho.Posterior

namespace Forcepho.Posterior.Stack

variable {R : Type} [Zero R] [Add R]

/-- `NPARAMS` (src/kernel_limits.h). -/
def nparams : Nat := 7

/-- A kernel output for one band: source, parameter → derivative. -/
abbrev Derivs (R : Type) := Nat → Nat → R

/-- One pass of the loop in `FastPosterior.stack_grad` (model.py:379-383): shape columns are
accumulated, then the flux column. -/
def addBand (nb : Nat) (grads : Nat → Nat → R) (band : Nat) (d : Derivs R) : Nat → Nat → R :=
  let g1 : Nat → Nat → R := fun s j => if nb ≤ j then grads s j + d s (j - nb + 1) else grads s j
  fun s j => if j = band then g1 s j + d s 0 else g1 s j

/-- The loop over bands (model.py:379). -/
def loop (nb : Nat) : List (Derivs R) → Nat → (Nat → Nat → R) → (Nat → Nat → R)
  | [], _, g => g
  | d :: ds, band, g => loop nb ds (band + 1) (addBand nb g band d)

/-- `FastPosterior.stack_grad` (model.py:370-387); the result is reshaped row by row. -/
def stackGrad (nsrc nb : Nat) (derivs : List (Derivs R)) : List R :=
  let g := loop nb derivs 0 (fun _ _ => 0)
  (List.range nsrc).flatMap fun s => (List.range (nb + (nparams - 1))).map fun j => g s j

end Forcepho.Posterior.Stack
