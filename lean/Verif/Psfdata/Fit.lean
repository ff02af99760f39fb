import Verif.Psfdata.Model

/-!
# The dictionary of a fitted mixture

Model of the mixture fits at the level of their dictionaries: which parameters `psf_model` samples, with which mean it
compares the image, what `psf_prediction(**best)` does with the parameters sampled, the choice of the best sample, and the
steps of `make_psf.py` up to the PSF array.  A number is a list of length one; the sampler enters through the values it
returns, which are arbitrary.
-/

set_option autoImplicit false

namespace Forcepho.Psfdata

open Classical

/-- A dictionary of parameter vectors. -/
abbrev Dict := List (String × List ℝ)

/-- How a call fails: an unknown keyword, arrays of different lengths, a missing key, an undefined name. -/
inductive Fault where
  | keyword
  | shape
  | key (k : String)
  | name
deriving DecidableEq

/-- The value of a key. -/
def lookup (d : Dict) (k : String) : Option (List ℝ) := (d.find? fun e => e.1 == k).map (·.2)

/-- A keyword argument with its default. -/
def arg (d : Dict) (k : String) (default : List ℝ) : List ℝ := (lookup d k).getD default

/-- `d[k] = v`. -/
def put (d : Dict) (k : String) (v : List ℝ) : Dict :=
  if (lookup d k).isSome then d.map fun e => if e.1 == k then (k, v) else e else d ++ [(k, v)]

/-- The length numpy broadcasts to, when the vectors agree. -/
def width (vs : List (List ℝ)) : Option Nat :=
  let n := (vs.map List.length).foldl max 1
  if vs.all fun v => v.length == n || v.length == 1 then some n else none

/-- Entry `i` of a vector after broadcasting. -/
def entryAt (v : List ℝ) (i : Nat) : ℝ := if v.length = 1 then v.headD 0 else v.getD i 0

noncomputable section

/-- The keywords of `psf_prediction` besides the pixels (psf_mix_hmc.py:35-38). -/
def predictionParams : List String := ["x", "y", "a", "weight", "sx", "q", "rho", "bg"]

/-- `psf_prediction(xpix, ypix, **d)` (psf_mix_hmc.py:35-53), as a function of the pixel. -/
def predict (d : Dict) : Except Fault (ℝ → ℝ → ℝ) :=
  if d.all fun e => predictionParams.contains e.1 then
    let x := arg d "x" [0]
    let y := arg d "y" [0]
    let a := arg d "a" [1]
    let w := arg d "weight" [1]
    let sx := arg d "sx" [3]
    let q := arg d "q" [3]
    let rho := arg d "rho" [0]
    let bg := arg d "bg" [0]
    match width [x, y, a, w, sx, q, rho] with
    | none => .error .shape
    | some n => .ok fun xp yp =>
        ((List.range n).map fun i =>
          gaussAt xp yp (entryAt a i) ⟨entryAt w i, entryAt x i, entryAt y i, entryAt sx i, entryAt q i, entryAt rho i⟩).sum
          + bg.headD 0
  else .error .keyword

/-- The arguments of `psf_model` that decide what is sampled (psf_mix_hmc.py:56-62). -/
structure FitArgs where
  afix : Option ℝ
  maxbg : ℝ
  ngauss : Nat
  nneg : Nat

/-- `if afix:` (psf_mix_hmc.py:120): `None` and zero are false. -/
def fixedAmplitude (a : Option ℝ) : Option ℝ := a.filter fun x => decide (x ≠ 0)

/-- The parameters sampled, in order (psf_mix_hmc.py:120-162). -/
def sites (A : FitArgs) : List String :=
  (if (fixedAmplitude A.afix).isSome then [] else ["a"]) ++ (if 0 < A.maxbg then ["bg"] else []) ++
  (if 1 < A.ngauss then ["weight"] else []) ++ ["x", "y", "rho", "sx", "q"] ++
  (if 0 < A.nneg then ["weight_m", "x_m", "y_m", "rho_m", "sx_m", "q_m"] else [])

/-- The mean of the likelihood at the sampled values (psf_mix_hmc.py:120-168). -/
def fitted (A : FitArgs) (v : String → List ℝ) : Except Fault (ℝ → ℝ → ℝ) :=
  let tot := match fixedAmplitude A.afix with
    | some a => [a]
    | none => v "a"
  let bg := if 0 < A.maxbg then v "bg" else [0]
  let w := if 1 < A.ngauss then v "weight" else [1]
  match predict [("x", v "x"), ("y", v "y"), ("a", tot), ("weight", w), ("sx", v "sx"), ("q", v "q"), ("rho", v "rho"),
      ("bg", bg)] with
  | .error e => .error e
  | .ok f =>
    if 0 < A.nneg then
      match predict [("x", v "x_m"), ("y", v "y_m"), ("a", [1]), ("weight", v "weight_m"), ("sx", v "sx_m"), ("q", v "q_m"),
          ("rho", v "rho_m")] with
      | .error e => .error e
      | .ok g => .ok fun xp yp => f xp yp - g xp yp
    else .ok f

/-- The dictionary `best` of `infer`: one sample of every parameter (utils_hmc.py:53). -/
def best (A : FitArgs) (v : String → List ℝ) : Dict := (sites A).map fun k => (k, v k)

/-- The scan of `argmin`: the index of the first least number seen. -/
def argminFrom : List ℝ → Nat → ℝ → Nat → Nat
  | [], _, _, j => j
  | x :: t, i, m, j => if x < m then argminFrom t (i + 1) x i else argminFrom t (i + 1) m j

/-- `nlnp.argmin()` (utils_hmc.py:52); `none` is `nan`, which counts as the least. -/
def argmin (xs : List (Option ℝ)) : Option Nat :=
  match xs.findIdx? Option.isNone, xs.filterMap id with
  | some i, _ => some i
  | none, [] => none
  | none, x :: t => some (argminFrom t 1 x 0)

/-- The dictionary after `fit_image` (make_psf.py:81-118): with the amplitude fixed, it is added. -/
def fitImage (fix : Bool) (a maxbg : ℝ) (ngauss nneg : Nat) (v : String → List ℝ) : Dict :=
  let A : FitArgs := ⟨if fix then some a else none, maxbg, ngauss, nneg⟩
  if fix then put (best A v) "a" [a] else best A v

/-- The keys that end in `_m`, without the ending (make_psf.py:127-130). -/
def negName (k : String) : Option String :=
  (([("weight_m", "weight"), ("x_m", "x"), ("y_m", "y"), ("rho_m", "rho"), ("sx_m", "sx"), ("q_m", "q")] :
    List (String × String)).find? fun e => e.1 == k).map (·.2)

/-- One key of the negative gaussians is added to the others (make_psf.py:140-146). -/
def absorb (p : Dict) (e : String × List ℝ) : Except Fault Dict :=
  match lookup p e.1 with
  | none => .error (.key e.1)
  | some u =>
    if e.1 = "weight" then
      match lookup p "a" with
      | none => .error (.key "a")
      | some a => .ok (put (put p "weight" (u.map (· * a.headD 0) ++ e.2.map (· * (-1)))) "a" [1])
    else .ok (put p e.1 (u ++ e.2))

/-- `rectify` (make_psf.py:121-148). -/
def rectifyDict (d : Dict) : Except Fault (Dict × (ℝ → ℝ → ℝ)) :=
  let m : Dict := d.filterMap fun e => (negName e.1).map fun k => (k, e.2)
  let p : Dict := d.filter fun e => (negName e.1).isNone
  match predict p with
  | .error e => .error e
  | .ok f =>
    if m.isEmpty then .ok (p, f)
    else
      match predict m with
      | .error e => .error e
      | .ok g =>
        match m.foldlM absorb p with
        | .error e => .error e
        | .ok p => .ok (p, fun xp yp => f xp yp - g xp yp)

/-- What `convert_psf_data` reads (make_psf.py:184-206), in order; `sy` is never in the dictionary of the current model. -/
def convertReads (d : Dict) : Except Fault Unit :=
  match ["x", "weight", "y", "sx", "q", "rho"].find? fun k => (lookup d k).isNone with
  | none => .ok ()
  | some k => .error (.key k)

end

end Forcepho.Psfdata
