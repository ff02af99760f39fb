import Verif.SuperScene.Disk
import Mathlib.Data.List.Nodup
import Mathlib.Data.List.Basic

/-! # C166: the files of PSF fits
(approx/psf/make_psf.py `combine_psfdatasets`, `fitsify_output` and the saving of a fit; demo/demo_psf/make_jwst_psf/make_psf.py has the
same text)

An HDF5 file of PSF data is a list of bands with their groups; a group is any value with the attribute `source`.  Letters are
made upper case one by one.  A FITS file is its primary header and its list of extensions. -/

set_option autoImplicit false

namespace Forcepho.Psfdata.Output

open Forcepho.SuperScene.Disk (pyReplace stripPrefix replaceAux stripPrefix_some pyReplace_absent)

/-! ## Combining files -/

/-- A group of the combined file: its data and its attribute `source`. -/
structure Group (D : Type) where
  data : D
  source : String
deriving DecidableEq

/-- Why combining stops. -/
inductive CombineErr
  | missing (f : String) | exists_ (band : List Char)
deriving DecidableEq

/-- `band.upper()`. -/
def upper (b : List Char) : List Char := b.map Char.toUpper

/-- The bands of one input file (approx/psf/make_psf.py:257-259). -/
def copyBands {D : Type} (f : String) : List (List Char × D) → List (List Char × Group D) →
    Except CombineErr (List (List Char × Group D))
  | [], dest => .ok dest
  | (b, d) :: bs, dest =>
    if (dest.map (·.1)).contains (upper b) then .error (.exists_ (upper b))
    else copyBands f bs (dest ++ [(upper b, ⟨d, f⟩)])

/-- `combine_psfdatasets` (approx/psf/make_psf.py:253-259). -/
def combine {D : Type} (disk : String → Option (List (List Char × D))) : List String → List (List Char × Group D) →
    Except CombineErr (List (List Char × Group D))
  | [], dest => .ok dest
  | f :: fs, dest =>
    match disk f with
    | none => .error (.missing f)
    | some bs =>
      match copyBands f bs dest with
      | .error e => .error e
      | .ok dest => combine disk fs dest

theorem copyBands_iff {D : Type} (f : String) (bs : List (List Char × D)) :
    ∀ (dest r : List (List Char × Group D)), (dest.map (·.1)).Nodup → (copyBands f bs dest = .ok r ↔
      (dest.map (·.1) ++ bs.map fun e => upper e.1).Nodup ∧ r = dest ++ bs.map fun e => (upper e.1, ⟨e.2, f⟩)) := by
  induction bs with
  | nil =>
    intro dest r hd
    simp only [copyBands, List.map_nil, List.append_nil]
    constructor
    · intro h; injection h with h; exact ⟨hd, h.symm⟩
    · rintro ⟨-, rfl⟩; rfl
  | cons e bs ih =>
    obtain ⟨b, d⟩ := e
    intro dest r hd
    simp only [copyBands, List.map_cons]
    by_cases hc : upper b ∈ dest.map (·.1)
    · rw [if_pos (by simpa using hc)]
      constructor
      · intro h; cases h
      · rintro ⟨h, -⟩
        exact absurd rfl ((List.nodup_append.1 h).2.2 (upper b) hc (upper b) (by simp))
    · rw [if_neg (by simpa using hc)]
      rw [ih _ r (by
        rw [List.map_append, List.nodup_append]
        refine ⟨hd, by simp, ?_⟩
        intro x hx y hy
        simp only [List.map_cons, List.map_nil, List.mem_singleton] at hy
        rw [hy]
        rintro rfl
        exact hc hx)]
      rw [List.map_append, List.append_assoc, List.append_assoc]
      rfl

/-- C166, combining. The files are combined just if all are there and no two bands, in the same or in different files, have the same
name but for the case of letters. Then the result has exactly the bands of all files, in order, with upper case names, their data, and
the file that each came from. -/
theorem C166_combine {D : Type} (disk : String → Option (List (List Char × D))) (files : List String)
    (r : List (List Char × Group D)) :
    combine disk files [] = .ok r ↔
      ∃ contents : List (List (List Char × D)), files.map disk = contents.map some ∧
        ((contents.flatten.map fun e => e.1.map Char.toUpper).Nodup) ∧
        r = (files.zip contents).flatMap fun c => c.2.map fun e => (e.1.map Char.toUpper, ⟨e.2, c.1⟩) := by
  have gen : ∀ (files : List String) (dest : List (List Char × Group D)), (dest.map (·.1)).Nodup →
      (combine disk files dest = .ok r ↔
      ∃ contents : List (List (List Char × D)), files.map disk = contents.map some ∧
        (dest.map (·.1) ++ contents.flatten.map fun e => upper e.1).Nodup ∧
        r = dest ++ (files.zip contents).flatMap fun c => c.2.map fun e => (upper e.1, ⟨e.2, c.1⟩)) := by
    intro files
    induction files with
    | nil =>
      intro dest hd
      simp only [combine]
      constructor
      · intro h
        injection h with h
        exact ⟨[], rfl, by simpa using hd, by simp [h]⟩
      · rintro ⟨cs, h1, h2, h3⟩
        rw [h3]
        simp
    | cons f fs ih =>
      intro dest hd
      simp only [combine]
      cases hf : disk f with
      | none =>
        simp only
        constructor
        · intro h; cases h
        · rintro ⟨cs, h1, -, -⟩
          cases cs with
          | nil => cases h1
          | cons c cs => rw [List.map_cons, List.map_cons, hf] at h1; injection h1 with h1 _; cases h1
      | some bs =>
        simp only
        cases hc : copyBands f bs dest with
        | error e =>
          simp only
          constructor
          · intro h; cases h
          · rintro ⟨cs, h1, h2, h3⟩
            exfalso
            cases cs with
            | nil => cases h1
            | cons c cs =>
              rw [List.map_cons, List.map_cons, hf] at h1
              injection h1 with h1 _
              injection h1 with h1
              subst h1
              have : copyBands f bs dest = .ok (dest ++ bs.map fun e => (upper e.1, ⟨e.2, f⟩)) := by
                rw [copyBands_iff f bs dest _ hd]
                refine ⟨?_, rfl⟩
                rw [List.flatten_cons, List.map_append, ← List.append_assoc] at h2
                exact (List.nodup_append.1 h2).1
              rw [hc] at this
              cases this
        | ok dest' =>
          simp only
          obtain ⟨hn, rfl⟩ := (copyBands_iff f bs dest dest' hd).1 hc
          have hk : (dest ++ bs.map fun e => (upper e.1, (⟨e.2, f⟩ : Group D))).map (·.1) =
              dest.map (·.1) ++ bs.map fun e => upper e.1 := by
            rw [List.map_append, List.map_map]; rfl
          rw [ih _ (by rw [hk]; exact hn), hk]
          constructor
          · rintro ⟨cs, h1, h2, h3⟩
            refine ⟨bs :: cs, by rw [List.map_cons, List.map_cons, hf, h1], ?_, ?_⟩
            · rw [List.flatten_cons, List.map_append, ← List.append_assoc]; exact h2
            · rw [h3, List.zip_cons_cons, List.flatMap_cons, List.append_assoc]
          · rintro ⟨cs, h1, h2, h3⟩
            cases cs with
            | nil => cases h1
            | cons c cs =>
              rw [List.map_cons, List.map_cons, hf] at h1
              injection h1 with h0 h1
              injection h0 with h0
              subst h0
              refine ⟨cs, h1, ?_, ?_⟩
              · rw [List.flatten_cons, List.map_append, ← List.append_assoc] at h2; exact h2
              · rw [h3, List.zip_cons_cons, List.flatMap_cons, List.append_assoc]
  have := gen files [] (by simp)
  simpa [upper] using this

/-- Two files with a band each. -/
example : combine (fun f => if f = "a" then some [("f090w".toList, 1)] else some [("F200W".toList, 2)]) ["a", "b"] [] =
    .ok [("F090W".toList, ⟨1, "a"⟩), ("F200W".toList, ⟨2, "b"⟩)] := by decide +kernel

/-- C166, refuted (twice the same band). Two files with the same band cannot be combined, e.g. a newer fit of it. -/
theorem C166_combine_refuted : combine (fun f => if f = "a" then some [("f090w".toList, 1)] else some [("F090W".toList, 2)])
    ["a", "b"] [] = .error (.exists_ "F090W".toList) := by decide +kernel

/-! ## The FITS file of a fit -/

/-- An extension. -/
inductive Ext (T : Type)
  /-- an image as the list of its rows -/
  | image (rows : List (List ℤ))
  | table (t : T)

/-- The file: what the header says the extensions are, the other keywords, the extensions after the primary one. -/
structure Fits (T : Type) where
  extNames : List (Nat × String)
  filter : List Char
  exts : List (Ext T)

/-- `a.reshape(nx, ny)`; `none` is a `ValueError`. Entry `(i, j)`. -/
def reshape (nx ny : Nat) (a : List ℤ) : Option (Nat → Nat → ℤ) :=
  if a.length = nx * ny then some fun i j => a.getD (i * ny + j) 0 else none

/-- The rows of `m.T` for `m` of shape `(nx, ny)`. -/
def transposed (nx ny : Nat) (m : Nat → Nat → ℤ) : List (List ℤ) :=
  (List.range ny).map fun j => (List.range nx).map fun i => m i j

/-- `fitsify_output` (approx/psf/make_psf.py:262-288), values scaled to integers; the position and scale keywords are not
modelled. -/
def fitsify {T : Type} (nx ny : Nat) (data : List ℤ) (model : Option (List ℤ)) (pars : T) (band : List Char) : Option (Fits T) :=
  match reshape nx ny data with
  | none => none
  | some im =>
    match model with
    | none => some ⟨[(1, "True PSF"), (2, "Table of Gaussian Parameters")], upper band,
        [.image (transposed nx ny im), .table pars]⟩
    | some m =>
      match reshape nx ny m with
      | none => none
      | some m => some ⟨[(1, "True PSF"), (2, "Model PSF"), (3, "Table of Gaussian Parameters")], upper band,
          [.image (transposed nx ny im), .image (transposed nx ny m), .table pars]⟩

/-- The picture holds the values of a fit: row `y`, column `x` is the value of the pixel `(x, y)`, numbered x first. -/
def Holds (nx ny : Nat) (a : List ℤ) (rows : List (List ℤ)) : Prop :=
  rows.length = ny ∧ (∀ r ∈ rows, r.length = nx) ∧
  ∀ x y, x < nx → y < ny → ∃ r v, rows[y]? = some r ∧ r[x]? = some v ∧ a[x * ny + y]? = some v

theorem holds_of (nx ny : Nat) (a : List ℤ) (m : Nat → Nat → ℤ) (h : reshape nx ny a = some m) :
    Holds nx ny a (transposed nx ny m) := by
  unfold reshape at h
  split at h
  · rename_i hl
    injection h with h
    refine ⟨by simp [transposed], ?_, ?_⟩
    · intro r hr
      obtain ⟨j, -, rfl⟩ := List.mem_map.1 hr
      simp
    · intro x y hx hy
      refine ⟨(List.range nx).map fun i => m i y, m x y, ?_, ?_, ?_⟩
      · rw [transposed, List.getElem?_map, List.getElem?_range hy]; rfl
      · rw [List.getElem?_map, List.getElem?_range hx]; rfl
      · have hlt : x * ny + y < a.length := by
          rw [hl]
          calc x * ny + y < x * ny + ny := by omega
            _ = (x + 1) * ny := by rw [Nat.add_mul, Nat.one_mul]
            _ ≤ nx * ny := Nat.mul_le_mul_right ny hx
        rw [← h]
        simp only
        rw [List.getD_eq_getElem?_getD, List.getElem?_eq_getElem hlt]
        rfl
  · cases h

/-- C166, FITS. For pixel values of the right number the file can be written; its extensions are the picture of the data, the picture of
the model if there is one, and the table, in this order; the header says of each number what the extension of that number is, and the
band in upper case. -/
theorem C166_fits {T : Type} (nx ny : Nat) (data : List ℤ) (model : Option (List ℤ)) (pars : T) (band : List Char)
    (hd : data.length = nx * ny) (hm : ∀ m ∈ model, m.length = nx * ny) :
    ∃ (f : Fits T) (im : List (List ℤ)), fitsify nx ny data model pars band = some f ∧ Holds nx ny data im ∧
      f.filter = band.map Char.toUpper ∧
      (∀ n s, (n, s) ∈ f.extNames → 1 ≤ n ∧ n ≤ f.exts.length) ∧
      match model with
      | none => f.exts = [.image im, .table pars] ∧ f.extNames = [(1, "True PSF"), (2, "Table of Gaussian Parameters")]
      | some m => ∃ mo, Holds nx ny m mo ∧ f.exts = [.image im, .image mo, .table pars] ∧
          f.extNames = [(1, "True PSF"), (2, "Model PSF"), (3, "Table of Gaussian Parameters")] := by
  have h1 : ∀ a : List ℤ, a.length = nx * ny → ∃ m, reshape nx ny a = some m := fun a ha => ⟨_, by rw [reshape, if_pos ha]⟩
  obtain ⟨im, him⟩ := h1 data hd
  cases model with
  | none =>
    refine ⟨_, _, by simp only [fitsify, him]; rfl, holds_of nx ny data im him, rfl, ?_, rfl, rfl⟩
    intro n s h
    simp only [List.mem_cons, Prod.mk.injEq, List.not_mem_nil, or_false] at h
    simp only [List.length_cons, List.length_nil]
    omega
  | some m =>
    obtain ⟨mo, hmo⟩ := h1 m (hm m rfl)
    refine ⟨_, _, by simp only [fitsify, him, hmo]; rfl, holds_of nx ny data im him, rfl, ?_, _, holds_of nx ny m mo hmo, rfl,
      rfl⟩
    intro n s h
    simp only [List.mem_cons, Prod.mk.injEq, List.not_mem_nil, or_false] at h
    simp only [List.length_cons, List.length_nil]
    omega

example : ∃ f, fitsify 2 3 [1, 2, 3, 4, 5, 6] none () "f090w".toList = some f ∧ f.exts = [.image [[1, 4], [2, 5], [3, 6]], .table ()] :=
  ⟨_, rfl, rfl⟩

/-- The FITS file of a fit as the script has it written (approx/psf/make_psf.py:382-386; demo/demo_psf/make_jwst_psf/make_psf.py:406-410): the
band is not handed over, so that it is the default of `fitsify_output` (approx/psf/make_psf.py:262-263). -/
def written {T : Type} (nx ny : Nat) (data model : List ℤ) (pars : T) (_band : List Char) : Option (Fits T) :=
  fitsify nx ny data (some model) pars ['F', '0', '9', '0', 'W']

/-- C166, refuted (FITS). The header of the file says that the filter is F090W, for a fit in any band. -/
theorem C166_filter_refuted {T : Type} (nx ny : Nat) (data model : List ℤ) (pars : T) (band : List Char)
    (hd : data.length = nx * ny) (hm : model.length = nx * ny) :
    ∃ f, written nx ny data model pars band = some f ∧ f.filter = "F090W".toList ∧
      written nx ny data model pars "F200W".toList = some f ∧ "F200W".toList.map Char.toUpper ≠ f.filter := by
  obtain ⟨f, -, h1, -, h2, -⟩ := C166_fits nx ny data (some model) pars ['F', '0', '9', '0', 'W'] hd
    (fun m h => by cases h; exact hm)
  have h3 : f.filter = "F090W".toList := h2.trans (by decide +kernel)
  exact ⟨f, h1, h3, h1, by rw [h3]; decide +kernel⟩

/-! ## Saving a fit -/

/-- What is in a file. -/
inductive Kind | hdf5 | fits
deriving DecidableEq

/-- The name of the FITS file (approx/psf/make_psf.py:382). -/
def fitsName (outname band : List Char) : List Char := pyReplace ['.', 'h', '5'] ('_' :: (band ++ ['.', 'f', 'i', 't', 's'])) outname

/-- Saving a fit (approx/psf/make_psf.py:373-386): the PSF data, then with `--fitsout` the FITS file, which overwrites. -/
def save (disk : List Char → Option Kind) (fitsout : Bool) (outname band : List Char) : List Char → Option Kind :=
  let d := fun p => if p = outname then some .hdf5 else disk p
  if fitsout then fun p => if p = fitsName outname band then some .fits else d p else d

theorem pyReplace_h5 (new root : List Char) (h : '.' ∉ root) :
    pyReplace ['.', 'h', '5'] new (root ++ ['.', 'h', '5']) = root ++ new := by
  have gen : ∀ (n : Nat) (root : List Char), '.' ∉ root → (root ++ ['.', 'h', '5']).length ≤ n →
      replaceAux ['.', 'h', '5'] new n (root ++ ['.', 'h', '5']) = root ++ new := by
    intro n
    induction n with
    | zero => intro root _ hn; simp at hn
    | succ n ih =>
      intro root h hn
      cases root with
      | nil =>
        show replaceAux ['.', 'h', '5'] new (n + 1) ['.', 'h', '5'] = new
        rw [replaceAux]
        have e : stripPrefix ['.', 'h', '5'] ['.', 'h', '5'] = some [] := by decide
        simp only [e]
        cases n <;> simp [replaceAux]
      | cons c cs =>
        have hc : '.' ≠ c := fun e => h (by rw [e]; simp)
        rw [List.cons_append, replaceAux]
        cases e : stripPrefix ['.', 'h', '5'] (c :: (cs ++ ['.', 'h', '5'])) with
        | none =>
          simp only
          rw [ih cs (fun hh => h (List.mem_cons_of_mem _ hh)) (by simpa using hn), List.cons_append]
        | some r =>
          have k := stripPrefix_some e
          rw [List.cons_append] at k
          injection k with k _
          exact absurd k.symm hc
  exact gen _ root h le_rfl

/-- C166, partial (saving). If the name ends in ".h5" and has no other dot, both files are there afterwards, the FITS file under the name of
the other with the band and ".fits" for the ending; no other file changes. Missing: other names, refuted below. -/
theorem C166_save_partial (disk : List Char → Option Kind) (root band : List Char) (h : '.' ∉ root) :
    save disk true (root ++ ".h5".toList) band (root ++ ".h5".toList) = some .hdf5 ∧
    save disk true (root ++ ".h5".toList) band (root ++ '_' :: (band ++ ".fits".toList)) = some .fits ∧
    (∀ p, p ≠ root ++ ".h5".toList → p ≠ root ++ '_' :: (band ++ ".fits".toList) →
      save disk true (root ++ ".h5".toList) band p = disk p) ∧
    save disk false (root ++ ".h5".toList) band (root ++ ".h5".toList) = some .hdf5 ∧
    (∀ p, p ≠ root ++ ".h5".toList → save disk false (root ++ ".h5".toList) band p = disk p) := by
  have e1 : (".h5".toList : List Char) = ['.', 'h', '5'] := by decide +kernel
  have e2 : (".fits".toList : List Char) = ['.', 'f', 'i', 't', 's'] := by decide +kernel
  rw [e1, e2]
  have hn : fitsName (root ++ ['.', 'h', '5']) band = root ++ '_' :: (band ++ ['.', 'f', 'i', 't', 's']) := pyReplace_h5 _ root h
  have hne : root ++ ['.', 'h', '5'] ≠ root ++ '_' :: (band ++ ['.', 'f', 'i', 't', 's']) := by
    intro hh
    have := List.append_cancel_left hh
    injection this with h1 _
    exact absurd h1 (by decide)
  refine ⟨?_, ?_, ?_, ?_, ?_⟩
  · simp only [save, if_true, hn]; rw [if_neg hne]
  · simp only [save, if_true, hn]
  · intro p h1 h2
    simp only [save, if_true, hn]; rw [if_neg h2, if_neg h1]
  · simp only [save, Bool.false_eq_true, if_false, if_true]
  · intro p h1
    simp only [save, Bool.false_eq_true, if_false]; rw [if_neg h1]

example : '.' ∉ "psf_v1".toList := by decide +kernel

/-- C166, refuted (saving). If the name has no ".h5" in it, the FITS file has the same name and overwrites the PSF data that were just
saved. -/
theorem C166_save_refuted (disk : List Char → Option Kind) (outname band : List Char) (h : ¬ ".h5".toList <:+: outname) :
    fitsName outname band = outname ∧ save disk true outname band outname = some .fits := by
  have e1 : (".h5".toList : List Char) = ['.', 'h', '5'] := by decide +kernel
  rw [e1] at h
  have hn : fitsName outname band = outname := pyReplace_absent h
  refine ⟨hn, ?_⟩
  simp only [save, if_true, hn]

example : ¬ ".h5".toList <:+: "psf_v1.hdf5".toList := by decide +kernel

end Forcepho.Psfdata.Output
