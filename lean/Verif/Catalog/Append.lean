import Mathlib.Data.List.Basic
import Mathlib.Data.List.GetD

/-!
# C103: appending catalogs

Models `write_table` and `append_catalogs` (`forcepho/utils/catalog.py:15-28`, `:41-57`).  A FITS
file is a list of HDUs; the first is the primary HDU without a table.  Tables are lists of rows; all
tables that are concatenated are taken to have the same columns.  Headers other than `EXTNAME` are
not modelled.
-/

set_option autoImplicit false

namespace Forcepho.Catalog

variable {R : Type}

/-! ## Model -/

/-- One HDU: `EXTNAME` and the table, if any. -/
structure Hdu (R : Type) where
  name : Option String
  data : Option (List R)
deriving DecidableEq

/-- An opened FITS file. -/
abbrev HduList (R : Type) := List (Hdu R)

/-- The exceptions. -/
inductive Err where
  | keyError
  | indexError
  | attributeError
  | valueError
deriving DecidableEq

/-- `hdul[ext]` with a name: the first HDU of that name.  Astropy compares without regard to case;
the names here are upper case on both sides. -/
def byName (h : HduList R) (ext : String) : Except Err (Hdu R) :=
  match h.find? fun u => u.name == some ext with
  | some u => .ok u
  | none => .error .keyError

/-- `hdul[i]`. -/
def byIndex (h : HduList R) (i : Nat) : Except Err (Hdu R) :=
  match h[i]? with
  | some u => .ok u
  | none => .error .indexError

/-- `.data.copy()`: `None` has no `copy`. -/
def dataCopy (u : Hdu R) : Except Err (List R) :=
  match u.data with
  | some d => .ok d
  | none => .error .attributeError

/-- One entry of the inner loop (`catalog.py:48-51`): by name, by position on `KeyError`. -/
def fetch (h : HduList R) (i : Nat) (ext : String) : Except Err (List R) :=
  match byName h ext with
  | .ok u => dataCopy u
  | .error _ =>
    match byIndex h i with
    | .ok u => dataCopy u
    | .error e => .error e

/-- `xtensions` (`catalog.py:42`). -/
def xtensions : List String := ["MOMENT", "SAMPLES", "BEST", "PERCENTILES"]

/-- The tables of one file, one per name, in order; the first exception ends the call. -/
def fetchAll (h : HduList R) : Nat → List String → Except Err (List (List R))
  | _, [] => .ok []
  | i, x :: xs =>
    match fetch h i x with
    | .error e => .error e
    | .ok d =>
      match fetchAll h (i + 1) xs with
      | .error e => .error e
      | .ok ds => .ok (d :: ds)

/-- `hdul[1].header` (`catalog.py:52`). -/
def fileTables (h : HduList R) : Except Err (List (List R)) :=
  match fetchAll h 0 xtensions with
  | .error e => .error e
  | .ok ds =>
    match byIndex h 1 with
    | .error e => .error e
    | .ok _ => .ok ds

/-- The loop over the files with the lists of tables gathered so far (`catalog.py:44-52`). -/
def gather : List (HduList R) → List (List (List R)) → Except Err (List (List (List R)))
  | [], acc => .ok acc
  | f :: fs, acc =>
    match fileTables f with
    | .error e => .error e
    | .ok ds => gather fs (List.zipWith (fun a d => a ++ [d]) acc ds)

/-- `np.concatenate(catlist)`: an empty list is a `ValueError`. -/
def concat (l : List (List R)) : Except Err (List R) :=
  if l.isEmpty then .error .valueError else .ok l.flatten

/-- `[np.concatenate(catlist) for catlist in catlists]` (`catalog.py:54-55`). -/
def concatAll : List (List (List R)) → Except Err (List (List R))
  | [] => .ok []
  | l :: ls =>
    match concat l with
    | .error e => .error e
    | .ok c =>
      match concatAll ls with
      | .error e => .error e
      | .ok cs => .ok (c :: cs)

/-- `for i, ext in enumerate(extnames): full[i+1].header["EXTNAME"] = ext` (`catalog.py:24-25`). -/
def nameFrom : Nat → List String → HduList R → HduList R
  | _, [], h => h
  | i, x :: xs, h => nameFrom (i + 1) xs (h.modify (i + 1) fun u => { u with name := some x })

/-- `write_table(out, cats, extnames)` (`catalog.py:15-28`): a primary HDU and one table per
catalog, named in order.  More names than tables raise `IndexError`. -/
def writeTable (cats : List (List R)) (extnames : List String) : Except Err (HduList R) :=
  if cats.length < extnames.length then .error .indexError
  else .ok (nameFrom 0 extnames (⟨none, none⟩ :: cats.map fun c => ⟨none, some c⟩))

/-- `append_catalogs(infilenames, out)` on the opened files (`catalog.py:41-57`); the result is the
file written to `out`. -/
def appendCatalogs (files : List (HduList R)) : Except Err (HduList R) :=
  match gather files (xtensions.map fun _ => []) with
  | .error e => .error e
  | .ok lists =>
    match concatAll lists with
    | .error e => .error e
    | .ok cats => writeTable cats xtensions

/-! ## Specification -/

/-- The table a reader gets for a name: the first HDU of that name that is in the file. -/
def Holds (h : HduList R) (ext : String) (d : List R) : Prop :=
  ∃ pre u post, h = pre ++ u :: post ∧ (∀ v ∈ pre, v.name ≠ some ext) ∧ u.name = some ext ∧
    u.data = some d

/-- A file as `write_table` leaves it: a primary HDU and all four named tables. -/
def Complete (h : HduList R) (d : String → List R) : Prop :=
  2 ≤ h.length ∧ ∀ x ∈ xtensions, Holds h x (d x)

/-! ## Theorems -/

theorem byName_of_holds {h : HduList R} {ext : String} {d : List R} (H : Holds h ext d) :
    ∃ u, byName h ext = .ok u ∧ u.data = some d := by
  obtain ⟨pre, u, post, rfl, hp, hn, hd⟩ := H
  refine ⟨u, ?_, hd⟩
  have : (pre ++ u :: post).find? (fun u => u.name == some ext) = some u := by
    rw [List.find?_append, List.find?_eq_none.mpr (by intro v hv; simpa using hp v hv)]
    simp [hn]
  unfold byName
  rw [this]

theorem fetchAll_of_holds {h : HduList R} {d : String → List R} (xs : List String) (i : Nat)
    (H : ∀ x ∈ xs, Holds h x (d x)) : fetchAll h i xs = .ok (xs.map d) := by
  induction xs generalizing i with
  | nil => rfl
  | cons x xs ih =>
    obtain ⟨u, hu, hd⟩ := byName_of_holds (H x List.mem_cons_self)
    have hf : fetch h i x = .ok (d x) := by simp [fetch, hu, dataCopy, hd]
    simp [fetchAll, hf, ih (i + 1) fun y hy => H y (List.mem_cons_of_mem _ hy)]

theorem fileTables_of_complete {h : HduList R} {d : String → List R} (H : Complete h d) :
    fileTables h = .ok (xtensions.map d) := by
  have h1 : ∃ u, h[1]? = some u := ⟨_, List.getElem?_eq_getElem (by have := H.1; omega)⟩
  obtain ⟨u, hu⟩ := h1
  simp [fileTables, fetchAll_of_holds xtensions 0 H.2, byIndex, hu]

theorem gather_of_complete (files : List (HduList R × (String → List R)))
    (H : ∀ f ∈ files, Complete f.1 f.2) (acc : String → List (List R)) :
    gather (files.map Prod.fst) (xtensions.map acc)
      = .ok (xtensions.map fun x => acc x ++ files.map fun f => f.2 x) := by
  induction files generalizing acc with
  | nil => simp [gather]
  | cons f fs ih =>
    rw [List.map_cons, gather, fileTables_of_complete (H f List.mem_cons_self)]
    simp only
    have e : List.zipWith (fun a d => a ++ [d]) (xtensions.map acc) (xtensions.map f.2)
        = xtensions.map fun x => acc x ++ [f.2 x] := rfl
    rw [e, ih fun g hg => H g (List.mem_cons_of_mem _ hg)]
    simp

theorem concatAll_map {X : Type} (xs : List X) (l : X → List (List R)) (hl : ∀ x ∈ xs, l x ≠ []) :
    concatAll (xs.map l) = .ok (xs.map fun x => (l x).flatten) := by
  induction xs with
  | nil => rfl
  | cons x xs ih =>
    have k : ¬ (l x).isEmpty := by simpa using hl x List.mem_cons_self
    simp [concatAll, concat, k, ih fun y hy => hl y (List.mem_cons_of_mem _ hy)]

/-- **C103, numbers of names.**  More names than catalogs raise; with fewer names all catalogs are
written, in order. -/
theorem C103_names (cats : List (List R)) (names : List String) :
    (cats.length < names.length → writeTable cats names = .error .indexError) ∧
    (names.length ≤ cats.length → ∃ h, writeTable cats names = .ok h ∧ h.length = cats.length + 1 ∧
      ∀ (i : Nat) (c : List R), cats[i]? = some c → ∃ u, h[i + 1]? = some u ∧ u.data = some c) := by
  constructor
  · intro h
    unfold writeTable
    rw [if_pos h]
  · intro h
    unfold writeTable
    rw [if_neg (by omega)]
    have key : ∀ (names : List String) (i : Nat) (h : HduList R),
        (nameFrom i names h).map (fun u => u.data) = h.map (fun u => u.data) := by
      intro names
      induction names with
      | nil => intro i h; rfl
      | cons x xs ih =>
        intro i h
        rw [nameFrom, ih]
        apply List.ext_getElem?
        intro j
        rw [List.getElem?_map, List.getElem?_map, List.getElem?_modify]
        by_cases hj : i + 1 = j
        · simp [hj, Function.comp_def]
        · simp [hj]
    have hk := key names 0 (⟨none, none⟩ :: cats.map fun c => ⟨none, some c⟩)
    refine ⟨_, rfl, ?_, ?_⟩
    · have := congrArg List.length hk
      simpa using this
    · intro i c hc
      have := congrArg (fun l => l[i + 1]?) hk
      simp only [List.getElem?_map, List.getElem?_cons_succ, hc, Option.map_some] at this
      exact Option.map_eq_some_iff.1 this

/-- **C103, writing.**  A table written with as many names as catalogs has a primary HDU followed by
the catalogs in order, each under its name, and nothing else. -/
theorem C103_write (cats : List (List R)) (names : List String) (hl : names.length = cats.length) :
    writeTable cats names = .ok (⟨none, none⟩ ::
      List.zipWith (fun c x => ⟨some x, some c⟩) cats names) := by
  unfold writeTable
  rw [if_neg (by omega)]
  congr 1
  have gen : ∀ (names : List String) (cats : List (List R)) (pre : HduList R) (i : Nat),
      names.length = cats.length → pre.length = i + 1 →
      nameFrom i names (pre ++ cats.map fun c => ⟨none, some c⟩)
        = pre ++ List.zipWith (fun c x => ⟨some x, some c⟩) cats names := by
    intro names
    induction names with
    | nil =>
      intro cats pre i h1 _
      have : cats = [] := List.length_eq_zero_iff.mp h1.symm
      simp [nameFrom, this]
    | cons x xs ih =>
      intro cats pre i h1 h2
      cases cats with
      | nil => simp at h1
      | cons c cs =>
        rw [nameFrom, List.map_cons]
        have e : (pre ++ (⟨none, some c⟩ : Hdu R) :: cs.map fun c => (⟨none, some c⟩ : Hdu R)).modify
              (i + 1) (fun u => { u with name := some x })
            = (pre ++ [(⟨some x, some c⟩ : Hdu R)]) ++ cs.map fun c => (⟨none, some c⟩ : Hdu R) := by
          rw [← h2]
          clear ih h1 h2
          induction pre with
          | nil => simp
          | cons p ps ihp => simpa using ihp
        rw [e, ih cs _ (i + 1) (by simpa using h1) (by simp [h2])]
        simp
  have := gen names cats [⟨none, none⟩] 0 hl rfl
  simpa using this

/-- **C103, appending.**  When every input has all four named tables, the output holds under each name
the rows of all inputs for that name, in the order of the inputs, and so can be appended again. -/
theorem C103_append_partial (files : List (HduList R × (String → List R))) (hne : files ≠ [])
    (H : ∀ f ∈ files, Complete f.1 f.2) :
    ∃ out, appendCatalogs (files.map Prod.fst) = .ok out ∧
      Complete out (fun x => (files.map fun f => f.2 x).flatten) ∧ out.length = 5 := by
  have hg := gather_of_complete files H fun _ => []
  have hc := concatAll_map xtensions (fun x => [] ++ files.map fun f => f.2 x)
    (by intro x _; simpa using hne)
  have hw : appendCatalogs (files.map Prod.fst) = .ok (⟨none, none⟩ ::
      List.zipWith (fun c x => ⟨some x, some c⟩)
        (xtensions.map fun x => ([] ++ files.map fun f : HduList R × (String → List R) => f.2 x).flatten)
        xtensions) := by
    unfold appendCatalogs
    simp only [hg, hc]
    exact C103_write _ _ (by simp)
  refine ⟨_, hw, ?_, ?_⟩
  · refine ⟨by simp [xtensions], ?_⟩
    intro x hx
    simp only [xtensions, List.mem_cons, List.not_mem_nil, or_false] at hx
    rcases hx with rfl | rfl | rfl | rfl
    · exact ⟨[_], _, _, rfl, by simp, rfl, rfl⟩
    · exact ⟨[_, _], _, _, rfl, by simp, rfl, rfl⟩
    · exact ⟨[_, _, _], _, _, rfl, by simp, rfl, rfl⟩
    · exact ⟨[_, _, _, _], _, _, rfl, by simp, rfl, rfl⟩
  · simp [xtensions]

/-- **C103 fails without the name of the first table.**  The fallback by position then reads the
primary HDU, which has no data. -/
theorem C103_primary_refuted (h : HduList R) (hn : ∀ u ∈ h, u.name ≠ some "MOMENT")
    (hp : ∃ u us, h = u :: us ∧ u.data = none) (rest : List (HduList R)) :
    appendCatalogs (h :: rest) = .error .attributeError := by
  obtain ⟨u, us, rfl, hd⟩ := hp
  have e : byName (u :: us) "MOMENT" = .error .keyError := by
    unfold byName
    rw [List.find?_eq_none.mpr (by intro v hv; simpa using hn v hv)]
  have f : fetch (u :: us) 0 "MOMENT" = .error .attributeError := by
    simp [fetch, e, byIndex, dataCopy, hd]
  simp [appendCatalogs, gather, fileTables, xtensions, fetchAll, f]

/-- **C103 fails without the name of a later table.**  The table at the fallback position is the one
before it: a file whose third table is not named contributes its samples as best values. -/
theorem C103_shift_refuted : ∃ (h : HduList Nat) (out : HduList Nat),
    h.length = 5 ∧ appendCatalogs [h] = .ok out ∧
    h[3]?.bind Hdu.data = some [30] ∧ Holds out "BEST" [20] := by
  refine ⟨[⟨none, none⟩, ⟨some "MOMENT", some [10]⟩, ⟨some "SAMPLES", some [20]⟩, ⟨none, some [30]⟩,
    ⟨some "PERCENTILES", some [40]⟩],
    [⟨none, none⟩, ⟨some "MOMENT", some [10]⟩, ⟨some "SAMPLES", some [20]⟩,
    ⟨some "BEST", some [20]⟩, ⟨some "PERCENTILES", some [40]⟩], rfl, by decide +kernel, rfl, ?_⟩
  exact ⟨[⟨none, none⟩, ⟨some "MOMENT", some [10]⟩, ⟨some "SAMPLES", some [20]⟩], _, _, rfl,
    by simp, rfl, rfl⟩

/-- C103, no input: the call raises. -/
theorem C103_empty : appendCatalogs ([] : List (HduList R)) = .error .valueError := rfl

/-! ## Concrete case -/

example : appendCatalogs
    [[⟨none, none⟩, ⟨some "MOMENT", some [1]⟩, ⟨some "SAMPLES", some [2]⟩, ⟨some "BEST", some [3]⟩,
      ⟨some "PERCENTILES", some [4]⟩],
     [⟨none, none⟩, ⟨some "BEST", some [7, 8]⟩, ⟨some "MOMENT", some [5]⟩, ⟨some "SAMPLES", some [6]⟩,
      ⟨some "PERCENTILES", some []⟩]]
    = .ok [⟨none, none⟩, ⟨some "MOMENT", some [1, 5]⟩, ⟨some "SAMPLES", some [2, 6]⟩,
      ⟨some "BEST", some [3, 7, 8]⟩, ⟨some "PERCENTILES", some [4]⟩] := by decide +kernel

end Forcepho.Catalog
