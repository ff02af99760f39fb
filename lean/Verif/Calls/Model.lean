/-!
# C167: binding the arguments of a call

Python's rule for calls of functions that are written in Python: values given by position and by keyword are bound to parameters.
The files are modelled in `Calls/Table.lean` by their signatures and calls. -/

set_option autoImplicit false

namespace Forcepho.Calls

/-- A signature, as after `def`: the parameters that may be given by position, how many of the last have defaults, whether there is
`*args`, the parameters after it with whether they have defaults, whether there is `**kwargs`
(e.g. forcepho/mixtures/psf_mix_hmc.py:35-38). -/
structure Sig where
  params : List String
  defaults : Nat
  varargs : Bool
  kwonly : List (String × Bool)
  kwargs : Bool
deriving DecidableEq

/-- A call as it is written (e.g. forcepho/mixtures/psf_mix_hmc.py:191-192). -/
structure CallText where
  file : String
  line : Nat
  positional : Nat
  star : Bool
  keywords : List String
  dstar : Bool
deriving DecidableEq

/-- A function and its calls (e.g. forcepho/mixtures/psf_mix_hmc.py:35-38, 191-192). -/
structure Callee where
  name : String
  sig : Sig
  calls : List CallText

/-- The kinds of `TypeError` (raised e.g. at forcepho/mixtures/psf_mix_em.py:130). -/
inductive CallErr
  | tooMany | unexpected (k : String) | multiple (k : String) | missing (p : String)
deriving DecidableEq

/-- What the body of the function sees: named values, `args`, `kwargs` (e.g. forcepho/model.py:47). -/
structure Bound (V : Type) where
  named : List (String × V)
  args : List V
  kwargs : List (String × V)
deriving DecidableEq

/-- The keywords one after the other (as at forcepho/mixtures/psf_mix_hmc.py:191-192). -/
def bindKw {V : Type} (s : Sig) : List (String × V) → Bound V → Except CallErr (Bound V)
  | [], b => .ok b
  | (k, v) :: rest, b =>
    if s.params.contains k || (s.kwonly.map (·.1)).contains k then
      if (b.named.map (·.1)).contains k then .error (.multiple k)
      else bindKw s rest { b with named := b.named ++ [(k, v)] }
    else if s.kwargs then bindKw s rest { b with kwargs := b.kwargs ++ [(k, v)] }
    else .error (.unexpected k)

/-- The parameters without defaults (as at forcepho/mixtures/psf_mix_em.py:96). -/
def required (s : Sig) : List String :=
  s.params.take (s.params.length - s.defaults) ++ (s.kwonly.filter fun p => !p.2).map (·.1)

/-- A call with values by position and by keyword, as in `f(*pos, **kw)` (e.g. forcepho/fitting.py:126). -/
def call {V : Type} (s : Sig) (pos : List V) (kw : List (String × V)) : Except CallErr (Bound V) :=
  if s.params.length < pos.length && !s.varargs then .error .tooMany
  else
    match bindKw s kw ⟨s.params.zip pos, pos.drop s.params.length, []⟩ with
    | .error e => .error e
    | .ok b =>
      match (required s).find? fun p => !(b.named.map (·.1)).contains p with
      | some p => .error (.missing p)
      | none => .ok b

end Forcepho.Calls
