/-!
# C159: importing modules

Model of what Python's import statement does with the modules of the package: parents first, the top-level statements in
order, `from m import x` looking for an attribute and then for a submodule, `from m import *` following `__all__`.  The texts are in
`Verif.Imports.Texts`.  Modules outside the repository are either there or not, and then have every name asked for.
Expressions evaluated at the top level are not modelled, nor are the attributes every module has.
-/

set_option autoImplicit false

namespace Forcepho.Imports

/-- A dotted name. -/
abbrev Path := List String

/-- A top-level statement (forcepho/utils/__init__.py:3-12 and every other module). -/
inductive Stmt where
  /-- `def`, `class`, an assignment. -/
  | bind (xs : List String)
  /-- `__all__ = [...]`. -/
  | setAll (xs : List String)
  /-- an import from outside the repository that must succeed (forcepho/sources.py:8-10). -/
  | ext (m : String) (xs : List String)
  /-- imports from outside under `try`, and the names bound by the handler (forcepho/model.py:15-30); the module `""`
  stands for an assignment in the `try`. -/
  | attempt (is : List (String × List String)) (handler : List String)
  /-- `from m import x as y, ...` within the repository (forcepho/sources.py:16). -/
  | frm (m : Path) (xs : List (String × String))
  /-- `from m import *` (forcepho/utils/__init__.py:7-12). -/
  | star (m : Path)

/-- A module's top level. -/
abbrev Text := List Stmt

/-- The modules that can be found. -/
abbrev Table := List (Path × Text)

/-- A module in `sys.modules`: the names bound so far, and `__all__`. -/
structure Mod where
  names : List String
  all : Option (List String)

/-- `sys.modules`. -/
abbrev State := List (Path × Mod)

/-- Why an import fails. -/
inductive Err where
  | noModule (m : Path)
  | noExternal (m : String)
  | noName (m : Path) (x : String)
  | depth
deriving DecidableEq

/-- The text of a module (the search for its file). -/
def text (tbl : Table) (p : Path) : Option Text := (tbl.find? fun e => e.1 == p).map (·.2)

/-- The entry of a module in `sys.modules`. -/
def entry (s : State) (p : Path) : Option Mod := (s.find? fun e => e.1 == p).map (·.2)

/-- Bind names in a module. -/
def bindIn (p : Path) (xs : List String) (s : State) : State :=
  s.map fun e => if e.1 == p then (e.1, { e.2 with names := e.2.names ++ xs }) else e

/-- `__all__ = xs` in a module. -/
def setAllIn (p : Path) (xs : List String) (s : State) : State :=
  s.map fun e => if e.1 == p then (e.1, ⟨e.2.names ++ ["__all__"], some xs⟩) else e

/-- What the imports under a `try` bind: everything up to the first module missing, then the names of the handler. -/
def attemptNames (ext : String → Bool) : List (String × List String) → List String → List String
  | [], _ => []
  | (m, xs) :: is, h => if m == "" || ext m then xs ++ attemptNames ext is h else h

/-- How a module is imported. -/
abbrev Loader := Path → State → Except Err State

/-- The attribute `x` of the module `m`, or else its submodule `x`. -/
def getName (tbl : Table) (ld : Loader) (m : Path) (x : String) (s : State) : Except Err State :=
  match entry s m with
  | none => .error (.noModule m)
  | some md =>
    if md.names.contains x then .ok s
    else if (text tbl (m ++ [x])).isSome then ld (m ++ [x]) s
    else .error (.noName m x)

/-- Several attributes in turn. -/
def getNames (tbl : Table) (ld : Loader) (m : Path) : List String → State → Except Err State
  | [], s => .ok s
  | x :: xs, s =>
    match getName tbl ld m x s with
    | .error e => .error e
    | .ok s => getNames tbl ld m xs s

/-- The names `from m import *` takes from a module without `__all__`. -/
def publicNames (md : Mod) : List String := md.names.filter fun x => !(x.toList.head? == some '_')

/-- Execute a statement of the module `p`. -/
def exec (tbl : Table) (ext : String → Bool) (ld : Loader) (p : Path) : Stmt → State → Except Err State
  | .bind xs, s => .ok (bindIn p xs s)
  | .setAll xs, s => .ok (setAllIn p xs s)
  | .ext m xs, s => if ext m then .ok (bindIn p xs s) else .error (.noExternal m)
  | .attempt is h, s => .ok (bindIn p (attemptNames ext is h) s)
  | .frm m xs, s =>
    match ld m s with
    | .error e => .error e
    | .ok s1 =>
      match getNames tbl ld m (xs.map (·.1)) s1 with
      | .error e => .error e
      | .ok s2 => .ok (bindIn p (xs.map (·.2)) s2)
  | .star m, s =>
    match ld m s with
    | .error e => .error e
    | .ok s1 =>
      match entry s1 m with
      | none => .error (.noModule m)
      | some md =>
        match md.all with
        | none => .ok (bindIn p (publicNames md) s1)
        | some xs =>
          match getNames tbl ld m xs s1 with
          | .error e => .error e
          | .ok s2 => .ok (bindIn p xs s2)

/-- Execute statements in order. -/
def execAll (tbl : Table) (ext : String → Bool) (ld : Loader) (p : Path) : Text → State → Except Err State
  | [], s => .ok s
  | st :: t, s =>
    match exec tbl ext ld p st s with
    | .error e => .error e
    | .ok s => execAll tbl ext ld p t s

/-- Import the package a module is in. -/
def loadParent (ld : Loader) (p : Path) (s : State) : Except Err State :=
  if p.dropLast = [] then .ok s else ld p.dropLast s

/-- Once imported, a module is an attribute of its package. -/
def bindParent (p : Path) (s : State) : State :=
  match p.getLast? with
  | none => s
  | some x => if p.dropLast = [] then s else bindIn p.dropLast [x] s

/-- `import p`; the number limits how deeply imports can be nested. -/
def load (tbl : Table) (ext : String → Bool) : Nat → Loader
  | 0, _, _ => .error .depth
  | n + 1, p, s =>
    if (entry s p).isSome then .ok s
    else
      match loadParent (load tbl ext n) p s with
      | .error e => .error e
      | .ok s1 =>
        if (entry s1 p).isSome then .ok s1
        else
          match text tbl p with
          | none => .error (.noModule p)
          | some t =>
            match execAll tbl ext (load tbl ext n) p t (s1 ++ [(p, ⟨[], none⟩)]) with
            | .error e => .error e
            | .ok s2 => .ok (bindParent p s2)

end Forcepho.Imports
