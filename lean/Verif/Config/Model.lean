import Mathlib.Data.List.Basic

/-! # Configuration (forcepho/config.py)

A `Namespace` is a partial function from attribute names to values.  The argument parser is argparse's;
it is modelled for parsers that only have options `--name`, as here.  The command line is a list of
items (`--name v ..`, `--name=v`, or an abbreviation of a name followed by values); the list of strings
the program sees is computed from it, and the test of `new_args` is made on the strings. -/

set_option autoImplicit false

namespace Forcepho.Config

/-- Values. -/
inductive Val where
  | none
  | str (s : String)
  | num (x : Int)
  | list (l : List Int)
  | array (l : List Int)
  | dtype (s : String)
deriving DecidableEq

/-- `argparse.Namespace`. -/
abbrev Namespace := String → Option Val

/-- One option on the command line. -/
inductive Item where
  | long (name : String) (vals : List String)
  | eq (name val : String)
  | short (pre name : String) (vals : List String)

/-- The strings of one option. -/
def Item.render : Item → List String
  | .long n vs => ("--" ++ n) :: vs
  | .eq n v => ["--" ++ n ++ "=" ++ v]
  | .short p _ vs => ("--" ++ p) :: vs

/-- The option meant, and its value strings. -/
def Item.meant : Item → String × List String
  | .long n vs => (n, vs)
  | .eq n v => (n, [v])
  | .short _ n vs => (n, vs)

/-- The strings of the command line. -/
def render (items : List Item) : List String := items.flatMap Item.render

/-- A parser: the option names with defaults, and the conversion of value strings. -/
structure Parser where
  names : List String
  default : String → Val
  conv : String → List String → Val

/-- `parser.parse_args`: all options have a value, the last one given or the default.  `none`: an
unknown option. -/
def parseArgs (p : Parser) (items : List Item) : Option Namespace :=
  if items.all fun i => decide (i.meant.1 ∈ p.names) then
    some fun k => if k ∈ p.names then
        some ((((items.filter fun i => decide (i.meant.1 = k)).getLast?).map
          fun i => p.conv k i.meant.2).getD (p.default k))
      else Option.none
  else Option.none

/-- `new_args` (config.py:268-276): keep the options whose name occurs, as `--name`, among the
strings. -/
def newArgs (p : Parser) (items : List Item) : Option Namespace :=
  (parseArgs p items).map fun ns k => if "--" ++ k ∈ render items then ns k else Option.none

/-- `update_config` (config.py:220-233): values that are not None overwrite. -/
def updateConfig (config : Namespace) (args : Option Namespace) : Namespace :=
  match args with
  | Option.none => config
  | some a => fun k => match a k with
    | Option.none => config k
    | some .none => config k
    | some v => some v

/-- `getattr(ns, k, None)`. -/
def getattr (ns : Namespace) (k : String) : Val := (ns k).getD .none

/-- The file named by a value: `none` for None; a missing file raises. -/
def readYaml (files : String → Option Namespace) : Val → Option (Option Namespace)
  | .none => some Option.none
  | .str s => (files s).map some
  | _ => Option.none

/-- The file name that `parse_all` uses (config.py:165-168). -/
def configFile (clargs defargs : Namespace) : Val :=
  match getattr clargs "config_file" with
  | .none => getattr defargs "config_file"
  | v => v

/-- `parse_all` (config.py:149-181) up to `rectify_config`; `argv[1:]` is the item list. -/
def mergeAll (p : Parser) (files : String → Option Namespace) (items : List Item) : Option Namespace :=
  (parseArgs p []).bind fun defargs =>
  (newArgs p items).bind fun clargs =>
  (readYaml files (configFile clargs defargs)).map fun yargs =>
    updateConfig (updateConfig defargs yargs) (some clargs)

/-- `read_config` (config.py:279-303) up to `rectify_config`. -/
def mergeRead (files : String → Option Namespace) (file : String) (args : Option Namespace) : Option Namespace :=
  (files file).map fun y => updateConfig y args

/-! ## `rectify_config` -/

/-- `setattr`. -/
def setattr (ns : Namespace) (k : String) (v : Val) : Namespace := fun x => if x = k then some v else ns x

/-- The three store files (config.py:240-247), in order, under a store directory: a missing attribute
is reported and skipped; a value that is not a string raises. -/
def storePaths (join : String → String → String) (dir : String) : List String → Namespace → Option Namespace
  | [], ns => some ns
  | attr :: rest, ns =>
    match ns attr with
    | Option.none => storePaths join dir rest ns
    | some (.str n) => storePaths join dir rest (setattr ns attr (.str (join dir n)))
    | some _ => Option.none

/-- The truth value of `store_directory`, when it names a directory. -/
def storeDir (ns : Namespace) : Option String :=
  match ns "store_directory" with
  | some (.str s) => if s = "" then Option.none else some s
  | _ => Option.none

/-- Does the name contain `dtype`? -/
def isDtype (k : String) : Bool := k.toList.tails.any fun t => "dtype".toList.isPrefixOf t

/-- One attribute in the loop of `rectify_config` (config.py:249-261). `types` are the known dtype names. -/
def rectifyOne (expand : String → String) (types : List String) (k : String) (v : Val) :
    Option Val :=
  if isDtype k then
    match v with
    | .str s => if s ∈ types then some (.dtype s) else Option.none
    | _ => Option.none
  else match v with
    | .str s => some (.str (expand s))
    | .list l => some (.array l)
    | v => some v

/-- The loop over all attributes; `keys` are the attributes present. -/
def rectifyLoop (expand : String → String) (types : List String) :
    List String → Namespace → Option Namespace
  | [], ns => some ns
  | k :: rest, ns =>
    match ns k with
    | Option.none => rectifyLoop expand types rest ns
    | some v => (rectifyOne expand types k v).bind fun v' =>
        rectifyLoop expand types rest (setattr ns k v')

/-- The fields read by `make_bounds_kwargs` (config.py:185-186). -/
def boundsFields : List String :=
  ["sqrtq_range", "sersic_range", "rhalf_range", "pa_range", "dpos", "n_sig_flux", "n_pix", "pixscale"]

/-- `make_bounds_kwargs` (config.py:184-192): the dictionary as a partial function. -/
def boundsKwargs (ns : Namespace) : Namespace := fun k =>
  if k ∈ boundsFields then
    match ns k with
    | Option.none => Option.none
    | some .none => Option.none
    | some v => some v
  else Option.none

/-- `rectify_config` (config.py:236-265): the attributes and the bounds dictionary. -/
def rectify (join : String → String → String) (expand : String → String) (types : List String)
    (keys : List String) (ns : Namespace) : Option (Namespace × Namespace) :=
  let stored := match storeDir ns with
    | some d => storePaths join d ["pixelstorefile", "metastorefile", "psfstorefile"] ns
    | Option.none => some ns
  stored.bind fun ns => (rectifyLoop expand types keys ns).map fun out => (out, boundsKwargs out)

end Forcepho.Config
