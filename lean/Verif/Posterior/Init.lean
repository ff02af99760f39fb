import Mathlib.Data.List.Basic
import Mathlib.Data.Rat.Defs
import Mathlib.Algebra.Order.Ring.Rat
import Mathlib.Tactic.Ring

/-! # Building a posterior object, and its defaults (forcepho/model.py)

Which combinations of `transform`, `lower` and `upper` the constructor accepts, what it stores, and
what `evaluate` makes of an absent prior or transform. -/

set_option autoImplicit false
set_option linter.unusedSectionVars false

namespace Forcepho.Posterior.Init

/-- How a call can fail. -/
inductive Err where
  /-- ValueError: 'Must specify either "transform" or ("lower","upper")' -/
  | either
  /-- ValueError: "Passed argument(s) ... that were not understood" -/
  | unknown
  /-- `kwargs.pop` of an absent name -/
  | key
  /-- lengths of the bounds differ -/
  | assertion
  /-- a name is not an attribute of the object -/
  | attribute
  /-- ValueError: the truth value of an array with several elements -/
  | ambiguous
  deriving DecidableEq

/-- Keyword arguments besides `transform` in the order in which they were passed, names distinct; a value is
an array of numbers or None. -/
abbrev Kwargs := List (String × Option (List Rat))

/-- `kwargs.get(name)`; None if absent. -/
def get (kw : Kwargs) (name : String) : Option (List Rat) := (kw.lookup name).getD none

/-- `kwargs.pop(name)` without a default: the value and the remaining arguments. -/
def pop (kw : Kwargs) (name : String) : Except Err (Option (List Rat) × Kwargs) :=
  match kw.lookup name with
  | none => .error .key
  | some a => .ok (a, kw.filter fun p => p.1 != name)

/-- `np.any(a)`; numpy before version 2 returns None for None (`old`), later versions False. -/
def npAny (old : Bool) : Option (List Rat) → Option Bool
  | none => if old then none else some false
  | some v => some (v.any fun x => x != 0)

/-- Python's `a and b` for values that are None or booleans. -/
def pyAnd (a b : Option Bool) : Option Bool := if a = some true then b else a

/-- The transform an object holds: the one it was given, or bounds. -/
inductive Held (T : Type) where
  /-- what was passed as `transform` -/
  | given (t : T)
  /-- `BoundedTransform(lower, upper)` -/
  | bounded (lower upper : List Rat)

variable {T : Type}

/-- `BoundedTransform.__init__` (model.py:604-608).  A bound that is None would be stored as an array holding
None, with which nothing can be computed; this is counted as a failure. -/
def boundedInit : Option (List Rat) → Option (List Rat) → Except Err (Held T)
  | some l, some u => if u.length = l.length then .ok (.bounded l u) else .error .assertion
  | _, _ => .error .assertion

/-- The transform stored, and the arguments left over (model.py:69-72). -/
def pickTransform : Option T → Kwargs → Except Err (Held T × Kwargs)
  | some t, kw => .ok (.given t, kw)
  | none, kw =>
    match pop kw "lower" with
    | .error e => .error e
    | .ok l =>
      match pop l.2 "upper" with
      | .error e => .error e
      | .ok u =>
        match boundedInit l.1 u.1 with
        | .error e => .error e
        | .ok b => .ok (b, u.2)

/-- `Posterior.__init__` (model.py:48-75), as `FastPosterior.__init__` calls it: with `transform=transform`
and all the arguments it does not name itself (model.py:271-276).  `bool` of a transform object is true. -/
def posterior (old : Bool) (transform : Option T) (kw : Kwargs) : Except Err (Held T) :=
  if pyAnd (npAny old (get kw "lower")) (npAny old (get kw "upper")) = some transform.isSome then .error .either
  else
    match pickTransform transform kw with
    | .error e => .error e
    | .ok r => if r.2.isEmpty then .ok r.1 else .error .unknown

/-! ## Which calls succeed -/

/-- C122: a posterior made with a transform object and nothing else uses that object. -/
theorem C122_transform (old : Bool) (t : T) : posterior old (some t) [] = .ok (.given t) := by
  cases old <;> rfl

/-- C122: if a transform object is passed together with bounds, one or two, construction is refused,
whatever the bounds are; so is any other argument. -/
theorem C122_exclusive (old : Bool) (t : T) (kw : Kwargs) (hne : kw ≠ []) :
    posterior old (some t) kw = .error .either ∨ posterior old (some t) kw = .error .unknown := by
  obtain ⟨p, kw, rfl⟩ := List.exists_cons_of_ne_nil hne
  by_cases h : pyAnd (npAny old (get (p :: kw) "lower")) (npAny old (get (p :: kw) "upper")) = some true
  · left
    simp [posterior, h]
  · right
    simp [posterior, h, pickTransform]

/-- The two orders in which bounds can be passed. -/
def boundsArgs (swap : Bool) (l u : List Rat) : Kwargs :=
  if swap then [("upper", some u), ("lower", some l)] else [("lower", some l), ("upper", some u)]

/-- C122, partial: bounds of one length, each with an entry that is not zero, are used as they are.  (The
full statement would not ask for nonzero entries, see `C122_zero_refuted`.) -/
theorem C122_bounds_partial (old swap : Bool) (l u : List Rat) (hlen : l.length = u.length)
    (hl : ∃ x ∈ l, x ≠ 0) (hu : ∃ x ∈ u, x ≠ 0) :
    posterior (T := T) old none (boundsArgs swap l u) = .ok (.bounded l u) := by
  have h1 : (l.any fun x => x != 0) = true := by
    obtain ⟨x, hx, h0⟩ := hl
    exact List.any_eq_true.mpr ⟨x, hx, by simpa using h0⟩
  have h2 : (u.any fun x => x != 0) = true := by
    obtain ⟨x, hx, h0⟩ := hu
    exact List.any_eq_true.mpr ⟨x, hx, by simpa using h0⟩
  cases swap <;>
    simp [boundsArgs, posterior, get, npAny, pyAnd, pickTransform, pop, boundedInit, hlen, h1, h2,
      List.lookup]

/-- C122, the way the code fails: bounds of which one is zero everywhere (say all lower bounds are zero) are
refused with the message that one must pass either a transform or two bounds. -/
theorem C122_zero_refuted (old swap : Bool) (l u : List Rat) (h : (∀ x ∈ l, x = 0) ∨ (∀ x ∈ u, x = 0)) :
    posterior (T := T) old none (boundsArgs swap l u) = .error .either := by
  have hz : ∀ v : List Rat, (∀ x ∈ v, x = 0) → (v.any fun x => x != 0) = false := by
    intro v hv
    rw [List.any_eq_false]
    intro x hx
    simp [hv x hx]
  have : pyAnd (some (l.any fun x => x != 0)) (some (u.any fun x => x != 0)) = some false := by
    rcases h with h | h
    · simp [pyAnd, hz l h]
    · by_cases hl : (l.any fun x => x != 0) = true
      · simp only [pyAnd, hl, if_true, hz u h]
      · simp only [Bool.not_eq_true] at hl
        simp [pyAnd, hl]
  cases swap <;> simp [boundsArgs, posterior, get, npAny, List.lookup, this]

/-- Removing one name does not change the values of others. -/
theorem lookup_filter (kw : Kwargs) (a b : String) (hab : a ≠ b) :
    (kw.filter fun p => p.1 != b).lookup a = kw.lookup a := by
  induction kw with
  | nil => rfl
  | cons q qs ih =>
    obtain ⟨k, v⟩ := q
    by_cases hkb : k = b
    · subst hkb
      have : (a == k) = false := by simpa using hab
      simp [List.lookup, this, ih]
    · have hkb' : (k != b) = true := by simpa using hkb
      simp only [List.filter_cons, hkb', if_true, List.lookup]
      split <;> simp_all

/-- C122: without a transform and with a bound missing construction fails, under every version of numpy. -/
theorem C122_incomplete (old : Bool) (kw : Kwargs)
    (h : kw.lookup "lower" = none ∨ kw.lookup "upper" = none) :
    posterior (T := T) old none kw = .error .either ∨ posterior (T := T) old none kw = .error .key := by
  by_cases hc : pyAnd (npAny old (get kw "lower")) (npAny old (get kw "upper")) = some false
  · left
    simp [posterior, hc]
  · right
    cases hl : kw.lookup "lower" with
    | none => simp [posterior, hc, pickTransform, pop, hl]
    | some a =>
      have hu : kw.lookup "upper" = none := by
        rcases h with h | h
        · simp [h] at hl
        · exact h
      simp [posterior, hc, pickTransform, pop, hl, lookup_filter, hu]

/-- C122: construction never invents a transform and ignores no argument: what the object holds is the object
passed as `transform`, with no other argument, or the two bounds passed, with no further argument; the bounds
then have one length. -/
theorem C122_sound (old : Bool) (t : Option T) (kw : Kwargs) (h : Held T) (hr : posterior old t kw = .ok h) :
    (∃ a, t = some a ∧ h = .given a ∧ kw = []) ∨
    t = none ∧ ∃ l u, h = .bounded l u ∧ l.length = u.length ∧ kw.lookup "lower" = some (some l) ∧
      kw.lookup "upper" = some (some u) ∧ ∀ p ∈ kw, p.1 = "lower" ∨ p.1 = "upper" := by
  unfold posterior at hr
  split at hr
  · cases hr
  · cases t with
    | some a =>
      left
      cases kw with
      | nil =>
        simp [pickTransform] at hr
        exact ⟨a, rfl, hr.symm, rfl⟩
      | cons p kw => simp [pickTransform] at hr
    | none =>
      right
      refine ⟨rfl, ?_⟩
      simp only [pickTransform, pop] at hr
      cases hl : kw.lookup "lower" with
      | none => simp [hl] at hr
      | some a =>
        cases hu : kw.lookup "upper" with
        | none => simp [hl, hu, lookup_filter] at hr
        | some b =>
          simp only [hl, hu, lookup_filter _ "upper" "lower" (by decide)] at hr
          cases a with
          | none => simp [boundedInit] at hr
          | some l =>
            cases b with
            | none => simp [boundedInit] at hr
            | some u =>
              by_cases hlen : u.length = l.length
              · simp only [boundedInit, hlen, if_true] at hr
                split at hr
                · rename_i he
                  injection hr with hr
                  refine ⟨l, u, hr.symm, hlen.symm, rfl, rfl, ?_⟩
                  intro p hp
                  by_contra hn
                  simp only [not_or] at hn
                  have hm : p ∈ ((kw.filter fun p => p.1 != "lower").filter fun p => p.1 != "upper") := by
                    simp only [List.mem_filter]
                    exact ⟨⟨hp, by simpa using hn.1⟩, by simpa using hn.2⟩
                  rw [List.isEmpty_iff.mp he] at hm
                  cases hm
                · cases hr
              · simp [boundedInit, hlen] at hr

/-- Cases: bounds that are used, bounds from zero to one that are refused, a length mismatch. -/
example : (posterior (T := Nat) false none [("lower", some [0, 1]), ("upper", some [2, 3])] =
    .ok (.bounded [0, 1] [2, 3])) ∧
    posterior (T := Nat) true none [("lower", some [0, 0]), ("upper", some [1, 1])] = .error .either ∧
    posterior (T := Nat) true none [("lower", some [1]), ("upper", some [1, 1])] = .error .assertion := by
  refine ⟨?_, ?_, ?_⟩
  · exact C122_bounds_partial false false [0, 1] [2, 3] rfl ⟨1, by simp, by decide⟩ ⟨2, by simp, by decide⟩
  · exact C122_zero_refuted true false [0, 0] [1, 1] (Or.inl (by simp))
  · rfl

/-! ## Evaluation with defaults -/

/-- A transform with what `make_transform` asks of it; arrays of the problem's dimension are functions. -/
structure Tr (K : Type) where
  map : (Nat → K) → (Nat → K)
  jacobian : (Nat → K) → (Nat → K)
  lndetjac : (Nat → K) → K
  lndetjacGrad : (Nat → K) → (Nat → K)

variable {K : Type} [CommRing K]

/-- What `make_transform` leaves in the object, and the scene parameters it returns. -/
structure Made (K : Type) where
  q : Nat → K
  jacobian : Nat → K
  lndetjac : K
  lndetjacGrad : Nat → K

/-- `Posterior.make_transform` (model.py:165-190); the scalars of the branch without a transform are
broadcast. -/
def makeTransform (t : Option (Tr K)) (z : Nat → K) : Made K :=
  match t with
  | some t => ⟨t.map z, t.jacobian z, t.lndetjac z, t.lndetjacGrad z⟩
  | none => ⟨z, fun _ => 1, 0, fun _ => 0⟩

/-- A function returning a value and its gradient. -/
abbrev Fn (K : Type) := (Nat → K) → K × (Nat → K)

/-- The attributes of an object: `lnpriorfn` is absent, or present and possibly None; `lnprior` may be
replaced on the object; `ndof` may be absent. -/
structure Obj (K : Type) where
  transform : Option (Tr K)
  lnpriorfn : Option (Option (Fn K))
  override : Option (Fn K)
  ndof : Option K
  sampling : Bool

/-- The attributes of a new `FastPosterior` (model.py:62-63, 276-300). -/
def newFast (t : Tr K) (lnprior : Option (Fn K)) (sampling : Bool) : Obj K :=
  { transform := some t
    lnpriorfn := some lnprior
    override := none
    ndof := some 1
    sampling := sampling }

/-- The attributes of a new `SlowPosterior` (model.py:416-434): the constructor of the base class is not
called, so neither `_lnpriorfn` nor `ndof` is set; there is no switch for the volume correction. -/
def newSlow (t : Option (Tr K)) (lnprior : Option (Fn K)) : Obj K :=
  { transform := t
    lnpriorfn := none
    override := lnprior
    ndof := none
    sampling := true }

/-- `self.lnprior(q)` (model.py:142-163, 428-429); a scalar gradient is broadcast. -/
def lnprior (o : Obj K) (q : Nat → K) : Except Err (K × (Nat → K)) :=
  match o.override with
  | some f => .ok (f q)
  | none =>
    match o.lnpriorfn with
    | none => .error .attribute
    | some none => .ok (0, fun _ => 0)
    | some (some f) => .ok (f q)

/-- `evaluate` from the log-likelihood in scene parameters (model.py:302-352, 436-465): the log-probability
and its gradient. -/
def evaluate (o : Obj K) (like : Fn K) (z : Nat → K) : Except Err (K × (Nat → K)) :=
  let m := makeTransform o.transform z
  let l := like m.q
  match lnprior o m.q with
  | .error e => .error e
  | .ok p =>
    let lnp := l.1 + p.1
    let grad : Nat → K := fun i => (l.2 i + p.2 i) * m.jacobian i
    if o.sampling then .ok (lnp + m.lndetjac, fun i => grad i + m.lndetjacGrad i) else .ok (lnp, grad)

/-- `nll` on an object that has not been evaluated at `z` (model.py:192-202). -/
def nll (div : K → K → K) (o : Obj K) (like : Fn K) (z : Nat → K) : Except Err (K × (Nat → K)) :=
  match evaluate o like z with
  | .error e => .error e
  | .ok r =>
    match o.ndof with
    | none => .error .attribute
    | some n => .ok (div (-r.1) n, fun i => div (-(r.2 i)) n)

/-- C122: without a prior a `FastPosterior` gives the log-likelihood at the transformed point, its gradient by
the chain rule, and the volume correction exactly if it is sampling. -/
theorem C122_fast_flat (t : Tr K) (sampling : Bool) (like : Fn K) (z : Nat → K) :
    evaluate (newFast t none sampling) like z =
      .ok (if sampling then (like (t.map z)).1 + t.lndetjac z else (like (t.map z)).1,
        fun i => if sampling then (like (t.map z)).2 i * t.jacobian z i + t.lndetjacGrad z i
          else (like (t.map z)).2 i * t.jacobian z i) := by
  cases sampling <;> simp [evaluate, newFast, makeTransform, lnprior]

/-- C122: with a prior, its value and gradient are added in the scene parameters, before the chain rule. -/
theorem C122_fast_prior (t : Tr K) (p : Fn K) (sampling : Bool) (like : Fn K) (z : Nat → K) :
    evaluate (newFast t (some p) sampling) like z =
      evaluate (newFast t none sampling) (fun q => ((like q).1 + (p q).1, fun i => (like q).2 i + (p q).2 i)) z := by
  cases sampling <;> simp [evaluate, newFast, makeTransform, lnprior]

/-- C122: and the numbers handed to an optimizer by `nll` are the negatives of these. -/
theorem C122_fast_nll (div : K → K → K) (hdiv : ∀ x, div x 1 = x) (t : Tr K) (p : Option (Fn K))
    (sampling : Bool) (like : Fn K) (z : Nat → K) :
    ∃ v g, evaluate (newFast t p sampling) like z = .ok (v, g) ∧
      nll div (newFast t p sampling) like z = .ok (-v, fun i => -(g i)) := by
  cases p <;> cases sampling <;> exact ⟨_, _, rfl, by simp [nll, evaluate, lnprior, newFast, hdiv]⟩

/-- C122, partial: a `SlowPosterior` made with a prior and without a transform gives the sum of log-likelihood
and prior at the point itself, and the sum of their gradients; with a transform the volume correction is always
included.  (The full statement would cover objects made without a prior.) -/
theorem C122_slow_partial (p : Fn K) (like : Fn K) (z : Nat → K) :
    evaluate (newSlow none (some p)) like z =
      .ok ((like z).1 + (p z).1, fun i => (like z).2 i + (p z).2 i) ∧
    ∀ t : Tr K, evaluate (newSlow (some t) (some p)) like z =
      .ok ((like (t.map z)).1 + (p (t.map z)).1 + t.lndetjac z,
        fun i => ((like (t.map z)).2 i + (p (t.map z)).2 i) * t.jacobian z i + t.lndetjacGrad z i) := by
  constructor
  · simp [evaluate, newSlow, makeTransform, lnprior]
  · intro t
    simp [evaluate, newSlow, makeTransform, lnprior]

/-- C122, the way the code fails: a `SlowPosterior` made without a prior raises at every evaluation, and
`nll` raises for every `SlowPosterior`, at every point. -/
theorem C122_slow_refuted (div : K → K → K) (t : Option (Tr K)) (like : Fn K) (z : Nat → K) :
    evaluate (newSlow t none) like z = .error .attribute ∧
      ∀ p : Option (Fn K), nll div (newSlow t p) like z = .error .attribute := by
  refine ⟨by simp [evaluate, newSlow, lnprior], ?_⟩
  intro p
  cases p <;> simp [nll, evaluate, newSlow, lnprior]

/-! ## Residuals of a `SlowPosterior` -/

/-- The argument of `residuals`: absent, a list, or an array. -/
inductive Theta (K : Type) where
  | absent
  | list (v : List K)
  | array (v : List K)

/-- `if Theta:`; numpy gives no truth value to an array of several numbers. -/
def truth [DecidableEq K] : Theta K → Except Err Bool
  | .absent => .ok false
  | .list v => .ok (!v.isEmpty)
  | .array [] => .ok false
  | .array [x] => .ok (decide (x ≠ 0))
  | .array _ => .error .ambiguous

/-- The numbers in the argument. -/
def Theta.numbers : Theta K → List K
  | .absent => []
  | .list v => v
  | .array v => v

/-- `SlowPosterior.residuals` (model.py:467-474): the parameters of the scene after the call, and for each
stamp its pixels less the model image of the scene; `image` is `make_image`. -/
def residuals [DecidableEq K] (image : List K → Nat → List K) (stamps : List (List K)) (scene : List K)
    (theta : Theta K) : Except Err (List K × List (List K)) :=
  match truth theta with
  | .error e => .error e
  | .ok b =>
    let sc := if b then theta.numbers else scene
    .ok (sc, stamps.zipIdx.map fun s => List.zipWith (· - ·) s.1 (image sc s.2))

/-- C122, partial: with the parameters passed as a nonempty list, or not at all, the residuals are those of
the scene with these parameters, or of the scene as it is: the `k`-th is the data of the `k`-th stamp less the
model image for that stamp.  (The full statement would cover arrays.) -/
theorem C122_residuals_partial [DecidableEq K] (image : List K → Nat → List K) (stamps : List (List K))
    (scene v : List K) (hv : v ≠ []) :
    (∃ r, residuals image stamps scene (.list v) = .ok (v, r) ∧ r.length = stamps.length ∧
      ∀ (k : Nat) (d : List K), stamps[k]? = some d → r[k]? = some (List.zipWith (· - ·) d (image v k))) ∧
    ∃ r, residuals image stamps scene .absent = .ok (scene, r) ∧ r.length = stamps.length ∧
      ∀ (k : Nat) (d : List K), stamps[k]? = some d →
        r[k]? = some (List.zipWith (· - ·) d (image scene k)) := by
  obtain ⟨x, v, rfl⟩ := List.exists_cons_of_ne_nil hv
  refine ⟨⟨_, rfl, by simp, ?_⟩, ⟨_, rfl, by simp, ?_⟩⟩ <;>
  · intro k d hk
    simp [List.getElem?_map, List.getElem?_zipIdx, hk, Theta.numbers]

/-- C122, the way the code fails: with an array of two or more parameters, which is what the rest of the
package uses, the call raises. -/
theorem C122_residuals_refuted [DecidableEq K] (image : List K → Nat → List K) (stamps : List (List K))
    (scene v : List K) (hv : 2 ≤ v.length) :
    residuals image stamps scene (.array v) = .error .ambiguous := by
  match v, hv with
  | x :: y :: v, _ => rfl

/-- And an array of a single zero is silently ignored. -/
theorem C122_residuals_zero_refuted [DecidableEq K] (image : List K → Nat → List K) (stamps : List (List K))
    (scene : List K) :
    residuals image stamps scene (.array [0]) = residuals image stamps scene .absent := by
  simp [residuals, truth]

/-- A case: the identity as model image. -/
example : residuals (K := Int) (fun q _ => q) [[5, 7], [1, 1]] [1, 2] (.list [3, 3]) =
    .ok ([3, 3], [[2, 4], [-2, -2]]) := rfl

end Forcepho.Posterior.Init
