import Verif.Bounds.Props
import Verif.SuperScene.Disk
import Verif.Postprocess.Images

/-!
# C117: the catalog made of an optimization run starts the next run

Model of `postop_catalog` (forcepho/postprocess.py:200-244) and of reading its result with `rectify_catalog`
(superscene.py:767-802, called in dispatcher.py:174).  A FITS file is its first table, if it has one.  Of the
headers only the keys set here are modelled.  File names are lists of characters.  The uncertainties are the
outcome of `flux_unc_linear`, modelled in `Verif.Postprocess.Catalogs`.
-/

set_option autoImplicit false
set_option linter.unusedSectionVars false

namespace Forcepho.Postprocess.Postop

open Forcepho.SuperScene.Disk (pyReplace dotFits pyReplace_absent pyReplace_ending)
open Forcepho.Bounds (InCat RectOpts rectify rectifyRow copyRow outCols tagNames shapeNames clip)

section Model
variable {K U : Type} [Field K] [LinearOrder K] [IsStrictOrderedRing K]

/-- What is read of `patch0_samples.h5`: the bands of that patch (fitting.py:84, 224) and the name of the raw
catalog in the stored configuration, or the exception for a configuration without one. -/
structure Samples where
  bands : List (List Char)
  raw : Except Err (List Char)

/-- The file that is written. -/
structure OutFile (K U : Type) where
  name : List Char
  ext1 : Option String
  ext2 : Option String
  postop : Bool
  filters : List Char
  table : InCat K
  unc : Option U

/-- `"_postop.fits"` (postprocess.py:222). -/
def postopFits : List Char := ['_', 'p', 'o', 's', 't', 'o', 'p', '.', 'f', 'i', 't', 's']

/-- Whether a name matches `*fits`; a leading point is not matched by `glob`. -/
def matchesFits (n : List Char) : Bool := ['f', 'i', 't', 's'].isSuffixOf n && n.head? != some '.'

/-- `cat[col] = 0` on a FITS table (postprocess.py:229-230). -/
def setZero (col : String) (c : InCat K) : Except Err (InCat K) :=
  if col ∈ c.cols then .ok ⟨c.cols, c.rows.map fun r n => if n = col then some 0 else r n⟩
  else .error .key

/-- `",".join(bands)`. -/
def joinComma : List (List Char) → List Char
  | [] => []
  | [b] => b
  | b :: c :: bs => b ++ ',' :: joinComma (c :: bs)

/-- The name of the output (postprocess.py:219-222). -/
def outName (s : Samples) : Option (List Char) → Except Err (List Char)
  | some n => .ok n
  | none => s.raw.map fun raw => pyReplace dotFits postopFits raw

/-- `glob.glob(f"{root}/*fits")[0]`, opened, and its first table (postprocess.py:226-228). -/
def firstTable (dir : List (List Char × Option (InCat K))) : Except Err (InCat K) :=
  match (dir.filter fun f => matchesFits f.1).head? with
  | none => .error .index
  | some (_, none) => .error .index
  | some (_, some c) => .ok c

/-- The attempt to add uncertainties (postprocess.py:232-237): only `AttributeError` is caught. -/
def addUnc : Except Err U → Except Err (Option U)
  | .ok u => .ok (some u)
  | .error .attribute => .ok none
  | .error e => .error e

/-- `postop_catalog(root, bands, catname)` (postprocess.py:200-244).  `patch0` is the file of the first patch if
it can be read, `dir` the listing of `root` in the order the system gives it. -/
def postopCatalog (patch0 : Option Samples) (dir : List (List Char × Option (InCat K))) (unc : Except Err U)
    (bands : Option (List (List Char))) (catname : Option (List Char)) : Except Err (OutFile K U) :=
  match patch0 with
  | none => .error .os
  | some s => do
    let name ← outName s catname
    let cat ← firstTable dir
    let cat ← setZero "n_iter" cat
    let cat ← setZero "n_patch" cat
    let u ← addUnc unc
    return ⟨name, some "maximum-a-posteriori", u.map fun _ => "flux uncertainties", true,
      joinComma (bands.getD s.bands), cat, u⟩

/-- `s.split(",")`; the first argument is the word being read. -/
def splitAux : List Char → List Char → List (List Char)
  | w, [] => [w]
  | w, c :: cs => if c = ',' then w :: splitAux [] cs else splitAux (w ++ [c]) cs

/-- `b.strip()`; whitespace beyond ASCII is not modelled. -/
def strip (b : List Char) : List Char :=
  ((b.dropWhile Char.isWhitespace).reverse.dropWhile Char.isWhitespace).reverse

/-- `[b.strip() for b in header["FILTERS"].split(",")]` (superscene.py:776). -/
def readFilters (s : List Char) : List (List Char) := (splitAux [] s).map strip

/-- The default ranges of `rectify_catalog` (superscene.py:767-769). -/
def defaultOpts : RectOpts K where
  rhalf := (51 / 1000, 29 / 100)
  q := (2 / 10, 99 / 100)
  sersic := (101 / 100, 499 / 100)
  pa := (-2, 2)
  rotate := false
  reverse := false

/-- `rectify_catalog(config.raw_catalog)` (dispatcher.py:174) on the file that was written. -/
def nextCatalog (pi : K) (f : OutFile K U) : Except Forcepho.Bounds.Err (List (String → K)) :=
  rectify pi defaultOpts ((readFilters f.filters).map String.ofList) f.table

end Model

/-! ## Reading the list of bands back -/

/-- A band name that survives the header: no comma, no blanks at the ends. -/
structure Name (b : List Char) : Prop where
  comma : ',' ∉ b
  first : ∀ c, b.head? = some c → c.isWhitespace = false
  last : ∀ c, b.getLast? = some c → c.isWhitespace = false

theorem splitAux_word (w b : List Char) (hb : ',' ∉ b) : splitAux w b = [w ++ b] := by
  induction b generalizing w with
  | nil => simp [splitAux]
  | cons c cs ih =>
    simp only [List.mem_cons, not_or] at hb
    rw [splitAux, if_neg (fun h => hb.1 h.symm), ih _ hb.2]
    simp

theorem splitAux_sep (w b rest : List Char) (hb : ',' ∉ b) :
    splitAux w (b ++ ',' :: rest) = (w ++ b) :: splitAux [] rest := by
  induction b generalizing w with
  | nil => simp [splitAux]
  | cons c cs ih =>
    simp only [List.mem_cons, not_or] at hb
    rw [List.cons_append, splitAux, if_neg (fun h => hb.1 h.symm), ih _ hb.2]
    simp

theorem splitAux_join : ∀ (bs : List (List Char)), bs ≠ [] → (∀ b ∈ bs, ',' ∉ b) →
    splitAux [] (joinComma bs) = bs
  | [], h, _ => absurd rfl h
  | [b], _, h => by
    rw [joinComma, splitAux_word _ _ (h b (by simp))]
    rfl
  | b :: c :: bs, _, h => by
    rw [joinComma, splitAux_sep _ _ _ (h b (by simp)),
      splitAux_join (c :: bs) (by simp) (fun x hx => h x (List.mem_cons_of_mem _ hx))]
    rfl

theorem dropWhile_id {l : List Char} (h : ∀ c, l.head? = some c → c.isWhitespace = false) :
    l.dropWhile Char.isWhitespace = l := by
  cases l with
  | nil => rfl
  | cons c cs => rw [List.dropWhile_cons, h c rfl]; rfl

theorem strip_name {b : List Char} (h : Name b) : strip b = b := by
  unfold strip
  rw [dropWhile_id h.first, dropWhile_id, List.reverse_reverse]
  intro c hc
  rw [List.head?_reverse] at hc
  exact h.last c hc

theorem readFilters_join {bs : List (List Char)} (hne : bs ≠ []) (h : ∀ b ∈ bs, Name b) :
    readFilters (joinComma bs) = bs := by
  unfold readFilters
  rw [splitAux_join bs hne (fun b hb => (h b hb).comma)]
  calc bs.map strip = bs.map id := List.map_congr_left fun b hb => strip_name (h b hb)
    _ = bs := List.map_id bs

section Props
variable {K U : Type} [Field K] [LinearOrder K] [IsStrictOrderedRing K]

/-- The table that is taken is that of the first name matching. -/
theorem firstTable_iff (dir : List (List Char × Option (InCat K))) (cat : InCat K) : firstTable dir = .ok cat ↔
    ∃ (pre : List (List Char × Option (InCat K))) (n : List Char)
      (post : List (List Char × Option (InCat K))), dir = pre ++ (n, some cat) :: post ∧
      (∀ g ∈ pre, ¬ ((∃ t, g.1 = t ++ "fits".toList) ∧ g.1.head? ≠ some '.')) ∧
      (∃ t, n = t ++ "fits".toList) ∧ n.head? ≠ some '.' := by
  have hm : ∀ n : List Char, matchesFits n = true ↔ (∃ t, n = t ++ "fits".toList) ∧ n.head? ≠ some '.' := by
    intro n
    have e : "fits".toList = ['f', 'i', 't', 's'] := by decide
    unfold matchesFits
    simp only [Bool.and_eq_true, List.isSuffixOf_iff_suffix, bne_iff_ne, e]
    constructor
    · rintro ⟨⟨t, h⟩, h2⟩
      exact ⟨⟨t, h.symm⟩, h2⟩
    · rintro ⟨⟨t, h⟩, h2⟩
      exact ⟨⟨t, h.symm⟩, h2⟩
  unfold firstTable
  rw [List.head?_filter]
  constructor
  · intro h
    rcases hf : dir.find? (fun f => matchesFits f.1) with _ | ⟨n, c⟩
    · simp [hf] at h
    · rcases c with _ | c
      · simp [hf] at h
      · simp only [hf, Except.ok.injEq] at h
        subst h
        rw [List.find?_eq_some_iff_append] at hf
        obtain ⟨hn, pre, post, hd, hpre⟩ := hf
        refine ⟨pre, n, post, hd, ?_, (hm n).mp hn⟩
        intro g hg hc
        have := hpre g hg
        rw [(hm g.1).mpr hc] at this
        simp at this
  · rintro ⟨pre, n, post, hd, hpre, hn⟩
    have : dir.find? (fun f => matchesFits f.1) = some (n, some cat) := by
      rw [List.find?_eq_some_iff_append]
      refine ⟨(hm n).mpr hn, pre, post, hd, ?_⟩
      intro g hg
      rw [Bool.not_eq_true', ← Bool.not_eq_true, hm]
      exact hpre g hg
    rw [this]

/-- C117 (what is written). With the listing holding `cat` as first FITS file, the catalog is written exactly if
the first patch can be read, a name is given or stored, both counters are columns, and the uncertainties either
are computed or lack an attribute.  Then the counters of every source are zero, everything else of the table is as
in `cat`, and the uncertainties are added exactly if they were computed. -/
theorem C117_written (s : Samples) (dir : List (List Char × Option (InCat K))) (unc : Except Err U)
    (bands : Option (List (List Char))) (catname : Option (List Char)) (f : OutFile K U) :
    postopCatalog (some s) dir unc bands catname = .ok f ↔
      ∃ (pre : List (List Char × Option (InCat K))) (n : List Char) (cat : InCat K)
        (post : List (List Char × Option (InCat K))), dir = pre ++ (n, some cat) :: post ∧
        (∀ g ∈ pre, ¬ ((∃ t, g.1 = t ++ "fits".toList) ∧ g.1.head? ≠ some '.')) ∧
        (∃ t, n = t ++ "fits".toList) ∧ n.head? ≠ some '.' ∧ "n_iter" ∈ cat.cols ∧ "n_patch" ∈ cat.cols ∧
        (catname = some f.name ∨
          (catname = none ∧ ∃ raw, s.raw = .ok raw ∧ f.name = pyReplace ".fits".toList "_postop.fits".toList raw)) ∧
        f.table.cols = cat.cols ∧
        f.table.rows = cat.rows.map (fun r c => if c = "n_iter" ∨ c = "n_patch" then some 0 else r c) ∧
        ((∃ u, unc = .ok u ∧ f.unc = some u ∧ f.ext2 = some "flux uncertainties") ∨
          (unc = .error .attribute ∧ f.unc = none ∧ f.ext2 = none)) ∧
        f.ext1 = some "maximum-a-posteriori" ∧ f.postop = true ∧ f.filters = joinComma (bands.getD s.bands) := by
  have e1 : ".fits".toList = dotFits := by decide
  have e2 : "_postop.fits".toList = postopFits := by decide
  have hfirst := firstTable_iff dir
  obtain ⟨fname, fe1, fe2, fp, ff, ft, fu⟩ := f
  obtain ⟨ftc, ftr⟩ := ft
  unfold postopCatalog
  rw [e1, e2]
  constructor
  · intro h
    simp only [bind, Except.bind] at h
    rcases hn : outName s catname with e | name
    · simp [hn] at h
    rcases hc : firstTable dir with e | cat
    · simp [hn, hc] at h
    simp only [hn, hc] at h
    by_cases h1 : "n_iter" ∈ cat.cols
    swap
    · simp [setZero, h1] at h
    by_cases h2 : "n_patch" ∈ cat.cols
    swap
    · simp [setZero, h1, h2] at h
    obtain ⟨pre, n, post, hd, hpre, hn'⟩ := (hfirst cat).mp hc
    refine ⟨pre, n, cat, post, hd, hpre, hn'.1, hn'.2, h1, h2, ?_⟩
    simp only [setZero, h1, h2, if_true] at h
    have hname : catname = some name ∨
        (catname = none ∧ ∃ raw, s.raw = .ok raw ∧ name = pyReplace dotFits postopFits raw) := by
      rcases catname with _ | m
      · right
        refine ⟨rfl, ?_⟩
        simp only [outName] at hn
        rcases hr : s.raw with e | raw
        · simp [hr, Except.map] at hn
        · simp only [hr, Except.map, Except.ok.injEq] at hn
          exact ⟨raw, rfl, hn.symm⟩
      · left
        simp only [outName, Except.ok.injEq] at hn
        rw [hn]
    have hrows : ∀ r : String → Option K,
        (fun m => if m = "n_patch" then some (0 : K) else if m = "n_iter" then some 0 else r m) =
          fun c => if c = "n_iter" ∨ c = "n_patch" then some 0 else r c := by
      intro r
      funext c
      by_cases ha : c = "n_patch" <;> by_cases hb : c = "n_iter" <;> simp [ha, hb]
    rcases unc with e | u
    · by_cases he : e = .attribute
      · subst he
        simp only [addUnc, Option.map_none, pure, Except.pure, Except.ok.injEq, OutFile.mk.injEq, List.map_map,
          InCat.mk.injEq, Function.comp_def] at h
        obtain ⟨rfl, rfl, rfl, rfl, rfl, ⟨rfl, rfl⟩, rfl⟩ := h
        exact ⟨hname, rfl, List.map_congr_left fun r _ => hrows r, Or.inr ⟨rfl, rfl, rfl⟩, rfl, rfl, rfl⟩
      · cases e <;> simp [addUnc] at h he
    · simp only [addUnc, Option.map_some, pure, Except.pure, Except.ok.injEq, OutFile.mk.injEq, List.map_map,
        InCat.mk.injEq, Function.comp_def] at h
      obtain ⟨rfl, rfl, rfl, rfl, rfl, ⟨rfl, rfl⟩, rfl⟩ := h
      exact ⟨hname, rfl, List.map_congr_left fun r _ => hrows r, Or.inl ⟨u, rfl, rfl, rfl⟩, rfl, rfl, rfl⟩
  · rintro ⟨pre, n, cat, post, hd, hpre, hn1, hn2, h1, h2, hname, hcols, hrows, hunc, he1, hp, hf⟩
    dsimp only at hname hcols hrows hunc he1 hp hf
    have hc : firstTable dir = .ok cat := (hfirst cat).mpr ⟨pre, n, post, hd, hpre, hn1, hn2⟩
    have hn : outName s catname = .ok fname := by
      rcases hname with rfl | ⟨rfl, raw, hr, rfl⟩
      · rfl
      · simp [outName, hr, Except.map]
    have hrows' : ∀ r : String → Option K,
        (fun m => if m = "n_patch" then some (0 : K) else if m = "n_iter" then some 0 else r m) =
          fun c => if c = "n_iter" ∨ c = "n_patch" then some 0 else r c := by
      intro r
      funext c
      by_cases ha : c = "n_patch" <;> by_cases hb : c = "n_iter" <;> simp [ha, hb]
    subst hcols hrows he1 hp hf
    rcases hunc with ⟨u, rfl, rfl, rfl⟩ | ⟨rfl, rfl, rfl⟩ <;>
      simp [bind, Except.bind, hn, hc, setZero, h1, h2, addUnc, pure, Except.pure, Function.comp_def, hrows']

/-- C117 (the name). A raw catalog named `….fits`, with no other `.fits` in the name, is kept: the new catalog is
named `…_postop.fits`. -/
theorem C117_name_partial (s : Samples) (dir : List (List Char × Option (InCat K))) (unc : Except Err U)
    (bands : Option (List (List Char))) (f : OutFile K U) (base : List Char)
    (hraw : s.raw = .ok (base ++ ".fits".toList)) (hb : ¬ ".fits".toList <:+: base)
    (h : postopCatalog (some s) dir unc bands none = .ok f) :
    f.name = base ++ "_postop.fits".toList ∧ f.name ≠ base ++ ".fits".toList := by
  obtain ⟨_, _, _, _, _, _, _, _, _, _, hn, _⟩ := (C117_written s dir unc bands none f).mp h
  have e1 : ".fits".toList = dotFits := by decide
  rcases hn with hn | ⟨-, raw, hr, hn⟩
  · simp at hn
  · rw [hraw] at hr
    cases hr
    rw [e1] at hn hb
    rw [pyReplace_ending hb] at hn
    refine ⟨hn, ?_⟩
    rw [hn]
    intro h
    have := congrArg List.length (List.append_cancel_left h)
    revert this
    decide

/-- C117 (refuted: the raw catalog is kept). A raw catalog whose name does not contain `.fits` is overwritten. -/
theorem C117_name_refuted (s : Samples) (dir : List (List Char × Option (InCat K))) (unc : Except Err U)
    (bands : Option (List (List Char))) (f : OutFile K U) (raw : List Char)
    (hraw : s.raw = .ok raw) (hb : ¬ ".fits".toList <:+: raw)
    (h : postopCatalog (some s) dir unc bands none = .ok f) : f.name = raw := by
  obtain ⟨_, _, _, _, _, _, _, _, _, _, hn, _⟩ := (C117_written s dir unc bands none f).mp h
  rcases hn with hn | ⟨-, raw', hr, hn⟩
  · simp at hn
  · rw [hraw] at hr
    cases hr
    rw [pyReplace_absent hb] at hn
    exact hn

/-- C117 (bands). The next run fits the bands asked for, or those of patch 0 if none were. -/
theorem C117_bands (s : Samples) (dir : List (List Char × Option (InCat K))) (unc : Except Err U)
    (bands : Option (List (List Char))) (catname : Option (List Char)) (f : OutFile K U)
    (hne : bands.getD s.bands ≠ []) (hnm : ∀ b ∈ bands.getD s.bands, Name b)
    (h : postopCatalog (some s) dir unc bands catname = .ok f) :
    readFilters f.filters = bands.getD s.bands := by
  obtain ⟨_, _, _, _, _, _, _, _, _, _, _, _, _, _, _, _, hf⟩ := (C117_written s dir unc bands catname f).mp h
  rw [hf, readFilters_join hne hnm]

/-- C117 (the next run). The first catalog of the run found is `cat`, with the columns of a scene of the bands `all` and finite
numbers.  Asked for some of the bands, the new catalog is accepted for the next run, with the same sources in the
same order, no iterations done, the same positions, tags and fluxes, and the shape of every source whose
parameters lie in the ranges accepted. -/
theorem C117_next_partial (pi : K) (s : Samples) (dir : List (List Char × Option (InCat K))) (unc : Except Err U)
    (bands : List (List Char)) (catname : Option (List Char)) (f : OutFile K U) (n : List Char) (cat : InCat K)
    (all : List String)
    (pre0 post0 : List (List Char × Option (InCat K))) (hdir : dir = pre0 ++ (n, some cat) :: post0)
    (hfirst : ∀ g ∈ pre0, ¬ ((∃ t, g.1 = t ++ "fits".toList) ∧ g.1.head? ≠ some '.'))
    (hn1 : ∃ t, n = t ++ "fits".toList) (hn2 : n.head? ≠ some '.')
    (hcols : cat.cols = ["id", "source_index", "is_active", "is_valid", "n_iter", "n_patch", "roi",
      "ra", "dec", "q", "pa", "sersic", "rhalf"] ++ all)
    (hnd : cat.cols.Nodup) (hfin : ∀ r ∈ cat.rows, ∀ c ∈ cat.cols, (r c).isSome)
    (hne : bands ≠ []) (hnm : ∀ b ∈ bands, Name b) (hbnd : bands.Nodup)
    (hsub : ∀ b ∈ bands, String.ofList b ∈ all)
    (h : postopCatalog (some s) dir unc (some bands) catname = .ok f) :
    ∃ rows, nextCatalog pi f = .ok rows ∧ rows.length = cat.rows.length ∧
      ∀ (i : Nat) (r : String → Option K) (t : String → K), cat.rows[i]? = some r → rows[i]? = some t →
        t "n_iter" = 0 ∧ t "n_patch" = 0 ∧
        (∀ c ∈ ["id", "source_index", "is_active", "is_valid", "roi", "ra", "dec"], r c = some (t c)) ∧
        (∀ b ∈ bands, r (String.ofList b) = some (t (String.ofList b))) ∧
        (∀ x, r "rhalf" = some x → 51 / 1000 ≤ x → x ≤ 29 / 100 → t "rhalf" = x) ∧
        (∀ x, r "q" = some x → 2 / 10 ≤ x → x ≤ 99 / 100 → t "q" = x) ∧
        (∀ x, r "sersic" = some x → 101 / 100 ≤ x → x ≤ 499 / 100 → t "sersic" = x) ∧
        (∀ x, r "pa" = some x → -2 ≤ x → x ≤ 2 → t "pa" = x) := by
  have hfil := C117_bands s dir unc (some bands) catname f hne hnm h
  obtain ⟨pre, m, cat', post, hd, hpre, hm1, hm2, hi, hpt, -, htc, htr, -⟩ :=
    (C117_written s dir unc (some bands) catname f).mp h
  have hcat : cat' = cat := by
    have h1 := (firstTable_iff dir cat').mpr ⟨pre, m, post, hd, hpre, hm1, hm2⟩
    have h2 := (firstTable_iff dir cat).mpr ⟨pre0, n, post0, hdir, hfirst, hn1, hn2⟩
    rw [h1] at h2
    exact Except.ok.inj h2
  subst hcat
  set bs := bands.map String.ofList with hbs
  have hbsub : ∀ b ∈ bs, b ∈ all := by
    intro b hb
    obtain ⟨b', hb', rfl⟩ := List.mem_map.mp hb
    exact hsub b' hb'
  have hinj : Function.Injective String.ofList := fun a b hab => by
    have := congrArg String.toList hab
    simpa using this
  have hbsnd : bs.Nodup := hbnd.map hinj
  have hout : ∀ c, c ∈ outCols bs → c ∈ cat'.cols := by
    intro c hc
    rw [hcols]
    simp only [outCols, tagNames, shapeNames, List.mem_append, List.mem_cons, List.not_mem_nil, or_false] at hc ⊢
    rcases hc with (hc | hc) | hc
    · left; tauto
    · left; tauto
    · right; exact hbsub c hc
  have hond : (outCols bs).Nodup := by
    have hn2 := hnd
    rw [hcols, List.nodup_append] at hn2
    unfold outCols
    rw [List.nodup_append]
    refine ⟨by decide, hbsnd, ?_⟩
    intro a ha b hb
    refine hn2.2.2 a ?_ b (hbsub b hb)
    simpa [tagNames, shapeNames] using ha
  have hok : rectify pi defaultOpts bs f.table =
      .ok (f.table.rows.mapIdx fun i r => rectifyRow pi defaultOpts (copyRow f.table bs i r)) := by
    unfold rectify
    have c1 : bs.all (fun b => decide (b ∈ f.table.cols)) = true := by
      rw [List.all_eq_true]
      intro b hb
      rw [htc]
      exact decide_eq_true (hout b (by simp [outCols, hb]))
    have c2 : shapeNames.all (fun b => decide (b ∈ f.table.cols)) = true := by
      rw [List.all_eq_true]
      intro b hb
      rw [htc]
      exact decide_eq_true (hout b (by simp [outCols, hb]))
    have c3 : f.table.cols.all (fun n => !decide (n ∈ outCols bs) || f.table.rows.all fun r => (r n).isSome) = true := by
      rw [List.all_eq_true]
      intro c hc
      rw [Bool.or_eq_true]
      right
      rw [List.all_eq_true]
      intro r hr
      rw [htr] at hr
      obtain ⟨r0, hr0, rfl⟩ := List.mem_map.mp hr
      by_cases hz : c = "n_iter" ∨ c = "n_patch"
      · simp [hz]
      · show (if c = "n_iter" ∨ c = "n_patch" then some 0 else r0 c).isSome
        rw [if_neg hz]
        rw [htc] at hc
        exact hfin r0 hr0 c hc
    rw [if_pos c1, if_neg (not_not.mpr hond), if_pos c2, if_pos c3]
  have hnext : nextCatalog pi f =
      .ok (f.table.rows.mapIdx fun i r => rectifyRow pi defaultOpts (copyRow f.table bs i r)) := by
    unfold nextCatalog
    rw [hfil]
    exact hok
  refine ⟨_, hnext, by rw [List.length_mapIdx, htr, List.length_map], ?_⟩
  intro i r t hr ht
  rw [List.getElem?_mapIdx, htr, List.getElem?_map, hr] at ht
  simp only [Option.map_some, Option.some.injEq] at ht
  have hrm : r ∈ cat'.rows := List.mem_of_getElem? hr
  have hcopy : ∀ c, c ∈ outCols bs → c ≠ "n_iter" → c ≠ "n_patch" →
      r c = some (copyRow f.table bs i (fun c => if c = "n_iter" ∨ c = "n_patch" then some 0 else r c) c) := by
    intro c hc h1 h2
    unfold copyRow
    rw [if_pos ⟨by rw [htc]; exact hout c hc, hc⟩]
    beta_reduce
    rw [if_neg (by tauto)]
    obtain ⟨x, hx⟩ := Option.isSome_iff_exists.mp (hfin r hrm c (hout c hc))
    rw [hx]
    rfl
  have hzero : ∀ c, c ∈ outCols bs → c = "n_iter" ∨ c = "n_patch" →
      copyRow f.table bs i (fun c => if c = "n_iter" ∨ c = "n_patch" then some 0 else r c) c = 0 := by
    intro c hc h1
    unfold copyRow
    rw [if_pos ⟨by rw [htc]; exact hout c hc, hc⟩]
    beta_reduce
    rw [if_pos h1]
    rfl
  have hclip : ∀ x lo hi : K, lo ≤ x → x ≤ hi → clip x lo hi = x := by
    intro x lo hi h1 h2
    rw [clip, max_eq_left h1, min_eq_left h2]
  have hmem : ∀ c ∈ tagNames ++ shapeNames, c ∈ outCols bs := by
    intro c hc
    unfold outCols
    exact List.mem_append_left _ hc
  rw [← ht]
  refine ⟨?_, ?_, ?_, ?_, ?_, ?_, ?_, ?_⟩
  · exact hzero "n_iter" (hmem _ (by decide)) (Or.inl rfl)
  · exact hzero "n_patch" (hmem _ (by decide)) (Or.inr rfl)
  · intro c hc
    have hshape : rectifyRow pi defaultOpts (copyRow f.table bs i
        (fun c => if c = "n_iter" ∨ c = "n_patch" then some 0 else r c)) c = copyRow f.table bs i
        (fun c => if c = "n_iter" ∨ c = "n_patch" then some 0 else r c) c := by
      simp only [List.mem_cons, List.not_mem_nil, or_false] at hc
      rcases hc with rfl | rfl | rfl | rfl | rfl | rfl | rfl <;> simp [rectifyRow]
    rw [hshape]
    have h3 : c ∈ tagNames ++ shapeNames := by
      simp only [List.mem_cons, List.not_mem_nil, or_false] at hc
      rcases hc with rfl | rfl | rfl | rfl | rfl | rfl | rfl <;> decide
    refine hcopy c (hmem c h3) ?_ ?_ <;> rintro rfl <;> exact absurd hc (by decide)
  · intro b hb
    have hb' : String.ofList b ∈ bs := List.mem_map_of_mem hb
    have hbo : String.ofList b ∈ outCols bs := by
      unfold outCols
      exact List.mem_append_right _ hb'
    have hdis : ∀ c ∈ tagNames ++ shapeNames, String.ofList b ≠ c := by
      unfold outCols at hond
      rw [List.nodup_append] at hond
      exact fun c hc he => hond.2.2 c hc _ hb' he.symm
    have hshape : rectifyRow pi defaultOpts (copyRow f.table bs i
        (fun c => if c = "n_iter" ∨ c = "n_patch" then some 0 else r c)) (String.ofList b) = copyRow f.table bs i
        (fun c => if c = "n_iter" ∨ c = "n_patch" then some 0 else r c) (String.ofList b) := by
      unfold rectifyRow
      rw [if_neg (hdis "rhalf" (by decide)), if_neg (hdis "q" (by decide)), if_neg (hdis "sersic" (by decide)),
        if_neg (hdis "pa" (by decide))]
    rw [hshape]
    exact hcopy _ hbo (hdis _ (by decide)) (hdis _ (by decide))
  all_goals
    intro x hx h1 h2
  · have := hcopy "rhalf" (hmem _ (by decide)) (by decide) (by decide)
    rw [hx] at this
    simp only [rectifyRow, if_true, ← Option.some.inj this]
    exact hclip _ _ _ h1 h2
  · have := hcopy "q" (hmem _ (by decide)) (by decide) (by decide)
    rw [hx] at this
    simp only [rectifyRow, if_true, ← Option.some.inj this, String.reduceEq, if_false]
    exact hclip _ _ _ h1 h2
  · have := hcopy "sersic" (hmem _ (by decide)) (by decide) (by decide)
    rw [hx] at this
    simp only [rectifyRow, if_true, ← Option.some.inj this, String.reduceEq, if_false]
    exact hclip _ _ _ h1 h2
  · have := hcopy "pa" (hmem _ (by decide)) (by decide) (by decide)
    rw [hx] at this
    simp only [rectifyRow, if_true, ← Option.some.inj this, String.reduceEq, if_false, defaultOpts,
      Bool.false_eq_true]
    exact hclip _ _ _ h1 h2

end Props

/-! ## Cases -/

/-- The catalog of a run with one source in two bands. -/
def exCat (rhalf : ℚ) : InCat ℚ where
  cols := ["id", "source_index", "is_active", "is_valid", "n_iter", "n_patch", "roi",
    "ra", "dec", "q", "pa", "sersic", "rhalf", "F090W", "F115W"]
  rows := [fun c => if c = "n_iter" then some 200 else if c = "n_patch" then some 3
    else if c = "rhalf" then some rhalf else if c = "q" then some (8 / 10) else if c = "sersic" then some 2
    else if c = "F115W" then some 7 else some 1]

/-- The samples of the case: the bands of the first patch and the name of the raw catalog. -/
def exSamples : Samples := ⟨["F090W".toList], .ok "cat.fits".toList⟩

/-- The directory of the case: the configuration, and the final catalog. -/
def exDir (rhalf : ℚ) : List (List Char × Option (InCat ℚ)) :=
  [("config.json".toList, none), ("superscene.fits".toList, some (exCat rhalf))]

/-- The file written for the case. -/
def exOut (bands : List (List Char)) (rhalf : ℚ) : OutFile ℚ Unit where
  name := "cat_postop.fits".toList
  ext1 := some "maximum-a-posteriori"
  ext2 := none
  postop := true
  filters := joinComma bands
  table := ⟨(exCat rhalf).cols, (exCat rhalf).rows.map fun r c => if c = "n_iter" ∨ c = "n_patch" then some 0 else r c⟩
  unc := none

theorem exOut_written (bands : Option (List (List Char))) (rhalf : ℚ) :
    postopCatalog (some exSamples) (exDir rhalf) (.error .attribute) bands none =
      .ok (exOut (bands.getD exSamples.bands) rhalf) := by
  rw [C117_written]
  refine ⟨[("config.json".toList, none)], "superscene.fits".toList, exCat rhalf, [], rfl, ?_, ?_, ?_, ?_, ?_, ?_,
    rfl, rfl, Or.inr ⟨rfl, rfl, rfl⟩, rfl, rfl, rfl⟩
  · intro g hg
    have : g = ("config.json".toList, none) := by simpa using hg
    subst this
    rintro ⟨⟨t, ht⟩, -⟩
    have h1 : "fits".toList <:+ "config.json".toList := ⟨t, ht.symm⟩
    revert h1
    decide
  · exact ⟨"superscene.".toList, by decide⟩
  · decide
  · simp [exCat]
  · simp [exCat]
  · refine Or.inr ⟨rfl, _, rfl, ?_⟩
    show "cat_postop.fits".toList = _
    decide +kernel

/-- C117 (refuted: all bands). Without a list of bands, the bands that patch 0 does not have are lost: here the
run fitted F115W, but the next run will not. -/
theorem C117_bands_refuted : ∃ f : OutFile ℚ Unit,
    postopCatalog (some exSamples) (exDir (1 / 10)) (.error .attribute) none none = .ok f ∧
      "F115W" ∈ (exCat (1 / 10)).cols ∧ readFilters f.filters = ["F090W".toList] := by
  refine ⟨_, exOut_written none (1 / 10), by simp [exCat], by decide +kernel⟩

/-- C117 (refuted: shapes). The prior of the run allows half-light radii from 0.03, the next run reads the one
found here as 0.051. -/
theorem C117_shape_refuted : ∃ (f : OutFile ℚ Unit) (rows : List (String → ℚ)) (r : String → Option ℚ)
    (t : String → ℚ),
    postopCatalog (some exSamples) (exDir (4 / 100)) (.error .attribute) (some ["F115W".toList]) none = .ok f ∧
      nextCatalog 3 f = .ok rows ∧ (exCat (4 / 100)).rows[0]? = some r ∧ rows[0]? = some t ∧
      r "rhalf" = some (4 / 100) ∧ (3 / 100 : ℚ) ≤ 4 / 100 ∧ (4 / 100 : ℚ) ≤ 3 / 10 ∧
      t "rhalf" = 51 / 1000 ∧ t "F115W" = 7 := by
  refine ⟨_, _, _, _, exOut_written (some ["F115W".toList]) (4 / 100), rfl, rfl, rfl, ?_, ?_, ?_, ?_, ?_⟩ <;>
    decide +kernel

/-- C117 (refuted: which catalog). If another catalog lies in the directory, the outcome depends on the order in
which the system lists it. -/
theorem C117_listing_refuted : ∃ (d1 d2 : List (List Char × Option (InCat ℚ))) (f1 f2 : OutFile ℚ Unit),
    d1.Perm d2 ∧ postopCatalog (some exSamples) d1 (.error .attribute) none none = .ok f1 ∧
      postopCatalog (some exSamples) d2 (.error .attribute) none none = .ok f2 ∧
      f1.table.rows.map (fun r => r "rhalf") ≠ f2.table.rows.map (fun r => r "rhalf") := by
  refine ⟨[("superscene.fits".toList, some (exCat (1 / 10))), ("old.fits".toList, some (exCat (2 / 10)))],
    [("old.fits".toList, some (exCat (2 / 10))), ("superscene.fits".toList, some (exCat (1 / 10)))], _, _,
    List.Perm.swap _ _ _, rfl, rfl, ?_⟩
  decide +kernel

/-- The hypotheses of `C117_next_partial` are met, and the next run starts from the fluxes found. -/
example : ∃ rows, nextCatalog 3 (exOut ["F090W".toList, "F115W".toList] (1 / 10)) = .ok rows ∧ rows.length = 1 := by
  obtain ⟨rows, h1, h2, -⟩ := C117_next_partial (3 : ℚ) exSamples (exDir (1 / 10)) (.error .attribute)
    ["F090W".toList, "F115W".toList] none _ "superscene.fits".toList (exCat (1 / 10)) ["F090W", "F115W"]
    [("config.json".toList, none)] [] rfl
    (by
      intro g hg
      have : g = ("config.json".toList, none) := by simpa using hg
      subst this
      rintro ⟨⟨t, ht⟩, -⟩
      have h1 : "fits".toList <:+ "config.json".toList := ⟨t, ht.symm⟩
      revert h1
      decide)
    ⟨"superscene.".toList, by decide⟩ (by decide) rfl (by simp [exCat])
    (by
      intro r hr c hc
      simp only [exCat, List.mem_cons, List.not_mem_nil, or_false] at hr
      subst hr
      beta_reduce
      split_ifs <;> rfl)
    (by simp)
    (by
      intro b hb
      simp only [List.mem_cons, List.not_mem_nil, or_false] at hb
      rcases hb with rfl | rfl
      · exact ⟨by decide, by decide, by decide⟩
      · exact ⟨by decide, by decide, by decide⟩)
    (by decide) (by decide) (exOut_written (some ["F090W".toList, "F115W".toList]) (1 / 10))
  exact ⟨rows, h1, h2⟩

end Forcepho.Postprocess.Postop
