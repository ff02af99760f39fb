import Verif.Postprocess.Images
import Mathlib.Data.List.Infix

/-! # Writing and reading back the pixels and residuals of a patch
(forcepho/utils/io.py, forcepho/postprocess.py `Residuals`)

An HDF5 file is a function from paths to groups and datasets; a path is the list of its components (empty
components, which HDF5 drops, do not occur).  Arrays are lists of numbers of any type, with the shape left out.
Names are written as byte strings, so a name with a character that is not ASCII raises. -/

set_option autoImplicit false
set_option linter.unusedSectionVars false

namespace Forcepho.Postprocess.Saved

variable {V : Type}

/-- The path of a dataset or group in an HDF5 file. -/
abbrev Path := List String

/-- What a dataset holds: names, paths of exposures, or numbers. -/
inductive Data (V : Type) where
  | names (l : List String)
  | paths (l : List Path)
  | numbers (l : List V)
  deriving DecidableEq, Repr

/-- An object of the file. -/
inductive Node (V : Type) where
  | group
  | dataset (d : Data V)
  deriving DecidableEq, Repr

/-- A file; the root is no entry. -/
abbrev H5 (V : Type) := Path → Option (Node V)

/-- Whether something that is no group lies on the way to `p`. -/
def blocked (f : H5 V) (p : Path) : Bool :=
  p.inits.any fun q => decide (q ≠ p) && match f q with
    | some (.dataset _) => true
    | _ => false

/-- The groups on the way to `p` that do not exist are made. -/
def withParents (f : H5 V) (p : Path) : H5 V := fun q =>
  if q ≠ [] ∧ q ≠ p ∧ q <+: p ∧ f q = none then some .group else f q

/-- `create_group` and `create_dataset` of h5py: an object that exists, or a dataset on the way, raises
`ValueError`. -/
def create (f : H5 V) (p : Path) (n : Node V) : Except Err (H5 V) :=
  if (f p).isSome ∨ blocked f p then .error .value else .ok (Function.update (withParents f p) p (some n))

/-- The body of the loop of `make_imset` (io.py:85-94).  Anything that goes wrong with the dataset is printed
and forgotten. -/
def imsetStep (name : String) (arrs : List (List V)) (i : Nat) (epath : Path) (f : H5 V) : Except Err (H5 V) :=
  match (if (f epath).isSome then .ok f else create f epath .group) with
  | .error x => .error x
  | .ok f =>
    match arrs[i]? with
    | none => .ok f
    | some a =>
      match create f (epath ++ [name]) (.dataset (.numbers a)) with
      | .error _ => .ok f
      | .ok f => .ok f

/-- `make_imset` (io.py:84-94), from exposure number `i`. -/
def makeImset (name : String) (arrs : List (List V)) : Nat → List Path → H5 V → Except Err (H5 V)
  | _, [], f => .ok f
  | i, e :: es, f =>
    match imsetStep name arrs i e f with
    | .error x => .error x
    | .ok f => makeImset name arrs (i + 1) es f

/-- The loop over attributes (io.py:73-79). -/
def makeImsets (paths : List Path) : List (String × List (List V)) → H5 V → Except Err (H5 V)
  | [], f => .ok f
  | (name, arrs) :: rest, f =>
    match makeImset name arrs 0 paths f with
    | .error x => .error x
    | .ok f => makeImsets paths rest f

/-- The groups of the bands (io.py:68-69). -/
def bandGroups : List String → H5 V → Except Err (H5 V)
  | [], f => .ok f
  | b :: bs, f =>
    match create f [b] .group with
    | .error x => .error x
    | .ok f => bandGroups bs f

/-- What is written of a patch: `attr` is the array of each exposure, by name. -/
structure Patch (V : Type) where
  epaths : List Path
  ebands : List String
  bandlist : List String
  ref : List V
  attr : String → List (List V)

/-- `np.array(names, dtype="S")`. -/
def ascii (s : String) : Bool := s.toList.all fun c => c.toNat < 128

/-- The names of the datasets of an exposure apart from the residual (io.py:56-57). -/
def attrNames : List String := ["data", "xpix", "ypix", "ierr", "D", "CW", "crpix", "crval"]

/-- `write_residuals` (io.py:54-79). -/
def writeResiduals (p : Patch V) (residuals : Option (List (List V))) : Except Err (H5 V) :=
  if ¬ (p.epaths.all fun e => e.all ascii) ∨ ¬ p.ebands.all ascii then .error .value
  else
    let f : H5 V := fun q =>
      if q = ["epaths"] then some (.dataset (.paths p.epaths))
      else if q = ["ebands"] then some (.dataset (.names p.ebands))
      else if q = ["reference_coordinates"] then some (.dataset (.numbers p.ref))
      else none
    match bandGroups p.bandlist f with
    | .error x => .error x
    | .ok f =>
      match makeImsets p.epaths ((residuals.map fun r => ("residual", r)).toList) f with
      | .error x => .error x
      | .ok f => makeImsets p.epaths (attrNames.map fun a => (a, p.attr a)) f

/-- `Residuals.__init__` (postprocess.py:38-43): the exposures, their bands and the reference position. -/
def openFile (f : H5 V) : Option (List Path × List String × List V) :=
  match f ["epaths"], f ["ebands"], f ["reference_coordinates"] with
  | some (.dataset (.paths e)), some (.dataset (.names b)), some (.dataset (.numbers r)) => some (e, b, r)
  | _, _, _ => none

/-- `handle[exp][value][:]`; `none` is the `KeyError`. -/
def readArray (f : H5 V) (exp : Path) (value : String) : Option (List V) :=
  match f (exp ++ [value]) with
  | some (.dataset (.numbers a)) => some a
  | _ => none

/-- `Residuals.make_exp` (postprocess.py:45-53) for exposure number `e`, with coordinates that are rationals. -/
def makeExp (nan : ℚ) (f : H5 ℚ) (e : Nat) (value : String) : Except Err (Image ℚ × (ℚ × ℚ) × (ℚ × ℚ)) :=
  match openFile f with
  | none => .error .key
  | some (exposures, _, _) =>
    match exposures[e]? with
    | none => .error .index
    | some exp =>
      match readArray f exp "xpix", readArray f exp "ypix", readArray f exp value with
      | some x, some y, some d => populateImage nan ((x.zip y).zip d)
      | _, _, _ => .error .key

/-- The files of one task (io.py:37-51): whether the configuration could be written into the samples, and the
residual file if there is one. -/
structure Files (V : Type) where
  config : Option String
  residual : Option (H5 V)

/-- `write_to_disk` (io.py:13-51), without the samples, which are modelled in `Verif.Fitting.Saved`.  `json` is
`json.dumps(vars(config))`, absent if it raises `TypeError`; `wanted` is the configuration's switch, absent if it
has none; `residualsAt` evaluates the model. -/
def writeToDisk (json : Option String) (wanted : Option Bool) (chain : List (List V)) (p : Patch V)
    (residualsAt : List V → List (List V)) (residual : Option (List (List V))) : Except Err (Files V) :=
  if wanted.getD false then
    match residual with
    | some r => (writeResiduals p (some r)).map fun f => ⟨json, some f⟩
    | none =>
      match chain.getLast? with
      | none => .error .index
      | some q => (writeResiduals p (some (residualsAt q))).map fun f => ⟨json, some f⟩
  else .ok ⟨json, none⟩

/-! ## Theorems -/

/-- The names of exposures do not collide: none lies inside another or inside the three datasets at the top, and
the bands are distinct. -/
structure Clean (p : Patch V) : Prop where
  ascii : (∀ e ∈ p.epaths, ∀ s ∈ e, ascii s = true) ∧ ∀ b ∈ p.ebands, ascii b = true
  free : ∀ e ∈ p.epaths, ∀ e' ∈ p.epaths, e <+: e' → e = e'
  top : ∀ e ∈ p.epaths, ∃ b rest, e = b :: rest ∧ b ≠ "epaths" ∧ b ≠ "ebands" ∧ b ≠ "reference_coordinates"
  bands : p.bandlist.Nodup ∧ "epaths" ∉ p.bandlist ∧ "ebands" ∉ p.bandlist ∧ "reference_coordinates" ∉ p.bandlist

lemma create_ok (f : H5 V) (p : Path) (n : Node V) (h1 : f p = none)
    (h2 : ∀ q, q <+: p → q ≠ p → ∀ d, f q ≠ some (.dataset d)) :
    create f p n = .ok (Function.update (withParents f p) p (some n)) := by
  unfold create
  rw [if_neg]
  rintro (h | h)
  · simp [h1] at h
  · unfold blocked at h
    rw [List.any_eq_true] at h
    obtain ⟨q, hq, h⟩ := h
    rw [List.mem_inits] at hq
    simp only [Bool.and_eq_true, decide_eq_true_eq] at h
    obtain ⟨hne, h⟩ := h
    rcases hf : f q with _ | _ | d
    · simp [hf] at h
    · simp [hf] at h
    · exact h2 q hq hne d hf

/-- What holds of the file throughout. -/
structure Sound (p : Patch V) (f : H5 V) : Prop where
  way : ∀ e ∈ p.epaths, ∀ q, q <+: e → ∀ d, f q ≠ some (.dataset d)
  top : openFile f = some (p.epaths, p.ebands, p.ref)

lemma not_prefix (p : Patch V) (hc : Clean p) (e e' : Path) (he : e ∈ p.epaths) (he' : e' ∈ p.epaths) (n : String) :
    ¬ e' ++ [n] <+: e := by
  intro h
  have h1 : e' <+: e := (List.prefix_append e' [n]).trans h
  have := hc.free _ he' _ he h1
  subst this
  have := h.length_le
  simp at this

lemma prefix_snoc {q e : Path} {n : String} (h : q <+: e ++ [n]) (hne : q ≠ e ++ [n]) : q <+: e := by
  rcases List.prefix_concat_iff.mp (by simpa using h) with h | h
  · exact absurd (by simpa using h) hne
  · exact h

lemma openFile_congr (f f' : H5 V) (h : ∀ s : String, s = "epaths" ∨ s = "ebands" ∨ s = "reference_coordinates" →
    f' [s] = f [s]) : openFile f' = openFile f := by
  unfold openFile
  rw [h "epaths" (by simp), h "ebands" (by simp), h "reference_coordinates" (by simp)]

/-- Making the group of an exposure. -/
lemma group_step (p : Patch V) (hc : Clean p) (f : H5 V) (hs : Sound p f) (e : Path) (he : e ∈ p.epaths) :
    ∃ f', (if (f e).isSome then .ok f else create f e .group) = .ok f' ∧ Sound p f' ∧
      ∀ e' ∈ p.epaths, ∀ n, f' (e' ++ [n]) = f (e' ++ [n]) := by
  by_cases hf : (f e).isSome
  · exact ⟨f, by rw [if_pos hf], hs, fun _ _ _ => rfl⟩
  have hf' : f e = none := by simpa using hf
  refine ⟨_, by rw [if_neg hf, create_ok f e .group hf' fun q hq _ d => hs.way e he q hq d], ⟨?_, ?_⟩, ?_⟩
  · intro e' he' q hq d
    by_cases h1 : q = e
    · subst h1; simp
    · rw [Function.update_of_ne h1]
      unfold withParents
      split
      · simp
      · exact hs.way e' he' q hq d
  · rw [← hs.top]
    apply openFile_congr
    intro s hsn
    obtain ⟨b, rest, rfl, h1, h2, h3⟩ := hc.top e he
    have hnp : ¬ [s] <+: b :: rest := by
      rw [List.cons_prefix_cons]
      rintro ⟨rfl, -⟩
      rcases hsn with h | h | h <;> contradiction
    have hne : [s] ≠ b :: rest := fun h => hnp (h ▸ List.prefix_refl _)
    rw [Function.update_of_ne hne]
    unfold withParents
    rw [if_neg]
    exact fun h => hnp h.2.2.1
  · intro e' he' n
    have hnp := not_prefix p hc e e' he he' n
    have hne : e' ++ [n] ≠ e := fun h => hnp (h ▸ List.prefix_refl _)
    rw [Function.update_of_ne hne]
    unfold withParents
    rw [if_neg]
    exact fun h => hnp h.2.2.1

/-- Writing one dataset. -/
lemma imset_step (p : Patch V) (hc : Clean p) (f : H5 V) (hs : Sound p f) (e : Path) (he : e ∈ p.epaths)
    (name : String) (arrs : List (List V)) (i : Nat) :
    ∃ f', imsetStep name arrs i e f = .ok f' ∧ Sound p f' ∧
      f' (e ++ [name]) = (f (e ++ [name])).or ((arrs[i]?).map fun a => .dataset (.numbers a)) ∧
      ∀ e' ∈ p.epaths, ∀ n, e' ++ [n] ≠ e ++ [name] → f' (e' ++ [n]) = f (e' ++ [n]) := by
  obtain ⟨f1, h1, hs1, hk1⟩ := group_step p hc f hs e he
  unfold imsetStep
  rw [h1]
  dsimp only
  rcases ha : arrs[i]? with _ | a
  · exact ⟨f1, rfl, hs1, by rw [hk1 e he]; simp, fun e' he' n _ => hk1 e' he' n⟩
  dsimp only
  by_cases hn : f1 (e ++ [name]) = none
  · have hcr := create_ok f1 (e ++ [name]) (.dataset (.numbers a)) hn
      fun q hq hne d => hs1.way e he q (prefix_snoc hq hne) d
    rw [hcr]
    refine ⟨_, rfl, ⟨?_, ?_⟩, ?_, ?_⟩
    · intro e' he' q hq d
      have hqe : q ≠ e ++ [name] := by
        rintro rfl
        exact not_prefix p hc e' e he' he name hq
      rw [Function.update_of_ne hqe]
      unfold withParents
      split
      · simp
      · exact hs1.way e' he' q hq d
    · rw [← hs1.top]
      apply openFile_congr
      intro s hsn
      obtain ⟨b, rest, rfl, h1, h2, h3⟩ := hc.top e he
      have hnp : ¬ [s] <+: b :: rest ++ [name] := by
        rw [List.cons_append, List.cons_prefix_cons]
        rintro ⟨rfl, -⟩
        rcases hsn with h | h | h <;> contradiction
      have hne : [s] ≠ b :: rest ++ [name] := fun h => hnp (h ▸ List.prefix_refl _)
      rw [Function.update_of_ne hne]
      unfold withParents
      rw [if_neg]
      exact fun h => hnp h.2.2.1
    · rw [Function.update_self, ← hk1 e he, hn]
      rfl
    · intro e' he' n hne
      rw [Function.update_of_ne hne]
      unfold withParents
      rw [if_neg, hk1 e' he']
      rintro ⟨-, hne', hpre, -⟩
      exact not_prefix p hc e e' he he' n (prefix_snoc hpre hne')
  · have hcr : create f1 (e ++ [name]) (.dataset (.numbers a)) = .error .value := by
      unfold create
      rw [if_pos]
      left
      rw [Option.isSome_iff_ne_none]
      exact hn
    rw [hcr]
    refine ⟨f1, rfl, hs1, ?_, fun e' he' n _ => hk1 e' he' n⟩
    rw [hk1 e he] at hn ⊢
    obtain ⟨v, hv⟩ := Option.ne_none_iff_exists'.mp hn
    rw [hv]
    rfl

/-- Writing one attribute of all exposures. -/
lemma imset_spec (p : Patch V) (hc : Clean p) (name : String) (arrs : List (List V)) :
    ∀ (es : List Path) (i : Nat) (f : H5 V), (∀ e ∈ es, e ∈ p.epaths) → Sound p f → i + es.length ≤ arrs.length →
    ∃ f', makeImset name arrs i es f = .ok f' ∧ Sound p f' ∧
      (∀ e ∈ p.epaths, ∀ n, n ≠ name → f' (e ++ [n]) = f (e ++ [n])) ∧
      ∀ e ∈ p.epaths, f' (e ++ [name]) = (f (e ++ [name])).or
        (if e ∈ es then (arrs[i + es.idxOf e]?).map fun a => .dataset (.numbers a) else none) := by
  intro es
  induction es with
  | nil => intro i f _ hs _; exact ⟨f, rfl, hs, fun _ _ _ _ => rfl, fun e _ => by simp⟩
  | cons e es ih =>
    intro i f hes hs hl
    have he := hes e (List.mem_cons_self ..)
    obtain ⟨f1, h1, hs1, hv1, hk1⟩ := imset_step p hc f hs e he name arrs i
    obtain ⟨f2, h2, hs2, hk2, hv2⟩ := ih (i + 1) f1 (fun e' h => hes e' (List.mem_cons_of_mem _ h)) hs1
      (by simp only [List.length_cons] at hl; omega)
    refine ⟨f2, by rw [makeImset, h1]; exact h2, hs2, ?_, ?_⟩
    · intro e' he' n hn
      rw [hk2 e' he' n hn, hk1 e' he' n]
      intro h
      exact hn (by simpa using (List.append_inj' h rfl).2)
    · intro e' he'
      rw [hv2 e' he']
      by_cases hee : e' = e
      · subst hee
        have hlt : i < arrs.length := by simp only [List.length_cons] at hl; omega
        rw [hv1, if_pos (List.mem_cons_self ..), List.idxOf_cons_self, Nat.add_zero, List.getElem?_eq_getElem hlt]
        rcases f (e' ++ [name]) with _ | v <;> simp
      · rw [hk1 e' he' name (fun h => hee (List.append_cancel_right h))]
        have hbeq : (e == e') = false := by simpa using fun h => hee h.symm
        simp only [List.mem_cons, hee, false_or]
        by_cases hm : e' ∈ es
        · rw [if_pos hm, if_pos hm, List.idxOf_cons_ne _ (fun h => hee h.symm)]
          congr 3
          omega
        · rw [if_neg hm, if_neg hm]

/-- Writing several attributes. -/
lemma imsets_spec (p : Patch V) (hc : Clean p) :
    ∀ (l : List (String × List (List V))) (f : H5 V), Sound p f → (l.map (·.1)).Nodup →
    (∀ x ∈ l, x.2.length = p.epaths.length) → (∀ x ∈ l, ∀ e ∈ p.epaths, f (e ++ [x.1]) = none) →
    ∃ f', makeImsets p.epaths l f = .ok f' ∧ Sound p f' ∧
      (∀ e ∈ p.epaths, ∀ n, n ∉ l.map (·.1) → f' (e ++ [n]) = f (e ++ [n])) ∧
      ∀ x ∈ l, ∀ e ∈ p.epaths, f' (e ++ [x.1]) = (x.2[p.epaths.idxOf e]?).map fun a => .dataset (.numbers a) := by
  intro l
  induction l with
  | nil => intro f hs _ _ _; exact ⟨f, rfl, hs, fun _ _ _ _ => rfl, by simp⟩
  | cons x l ih =>
    intro f hs hnd hlen hnone
    obtain ⟨name, arrs⟩ := x
    simp only [List.map_cons, List.nodup_cons] at hnd
    obtain ⟨f1, h1, hs1, hk1, hv1⟩ := imset_spec p hc name arrs p.epaths 0 f (fun _ h => h) hs
      (by rw [Nat.zero_add]; exact (hlen _ (List.mem_cons_self ..)).ge)
    obtain ⟨f2, h2, hs2, hk2, hv2⟩ := ih f1 hs1 hnd.2 (fun y hy => hlen y (List.mem_cons_of_mem _ hy))
      (by
        intro y hy e he
        rw [hk1 e he y.1 (fun h => hnd.1 (h ▸ List.mem_map_of_mem hy))]
        exact hnone y (List.mem_cons_of_mem _ hy) e he)
    refine ⟨f2, by rw [makeImsets, h1]; exact h2, hs2, ?_, ?_⟩
    · intro e he n hn
      simp only [List.map_cons, List.mem_cons, not_or] at hn
      rw [hk2 e he n hn.2, hk1 e he n hn.1]
    · intro y hy e he
      rcases List.mem_cons.mp hy with rfl | hy
      · rw [hk2 e he name hnd.1, hv1 e he, hnone _ (List.mem_cons_self ..) e he, if_pos he, Nat.zero_add]
        rfl
      · exact hv2 y hy e he

/-- The groups of the bands. -/
lemma bandGroups_spec : ∀ (bs : List String) (f : H5 V), bs.Nodup → f [] = none → (∀ b ∈ bs, f [b] = none) →
    ∃ f', bandGroups bs f = .ok f' ∧ (∀ q, (∀ b ∈ bs, q ≠ [b]) → f' q = f q) ∧ ∀ b ∈ bs, f' [b] = some .group := by
  intro bs
  induction bs with
  | nil => intro f _ _ _; exact ⟨f, rfl, fun _ _ => rfl, by simp⟩
  | cons b bs ih =>
    intro f hnd h0 hb
    have hcr := create_ok f [b] .group (hb b (List.mem_cons_self ..)) (by
      intro q hq hne d
      rcases q with _ | ⟨c, q⟩
      · simp [h0]
      · rw [List.cons_prefix_cons, List.prefix_nil] at hq
        exact absurd (by rw [hq.1, hq.2]) hne)
    have hw : withParents f [b] = f := by
      funext q
      unfold withParents
      rw [if_neg]
      rintro ⟨h1, h2, h3, -⟩
      rcases q with _ | ⟨c, q⟩
      · exact h1 rfl
      · rw [List.cons_prefix_cons, List.prefix_nil] at h3
        exact h2 (by rw [h3.1, h3.2])
    rw [hw] at hcr
    rw [List.nodup_cons] at hnd
    obtain ⟨f2, h2, hk, hg⟩ := ih (Function.update f [b] (some .group)) hnd.2
      (by rw [Function.update_of_ne (by simp)]; exact h0)
      (by
        intro c hc
        rw [Function.update_of_ne (by
          intro h
          simp only [List.cons.injEq, and_true] at h
          exact hnd.1 (h ▸ hc))]
        exact hb c (List.mem_cons_of_mem _ hc))
    refine ⟨f2, by rw [bandGroups, hcr]; exact h2, ?_, ?_⟩
    · intro q hq
      rw [hk q fun c hc => hq c (List.mem_cons_of_mem _ hc),
        Function.update_of_ne (hq b (List.mem_cons_self ..))]
    · intro c hc
      rcases List.mem_cons.mp hc with rfl | hc
      · rw [hk [c] (by
          intro d hd h
          simp only [List.cons.injEq, and_true] at h
          exact hnd.1 (h ▸ hd)), Function.update_self]
      · exact hg c hc

/-- C115 (reading back). Of a patch whose exposures have names that do not collide, and with one array of every
kind per exposure, a file is written from which the list of exposures and bands and the reference position are read
as they were, and of every exposure the arrays that belong to the first exposure of that name; a residual is there
exactly if residuals were given. -/
theorem C115_first (p : Patch V) (hc : Clean p) (residuals : Option (List (List V)))
    (hlen : ∀ a ∈ ["data", "xpix", "ypix", "ierr", "D", "CW", "crpix", "crval"], (p.attr a).length = p.epaths.length)
    (hres : ∀ r, residuals = some r → r.length = p.epaths.length) :
    ∃ f, writeResiduals p residuals = .ok f ∧ openFile f = some (p.epaths, p.ebands, p.ref) ∧
      ∀ e ∈ p.epaths, readArray f e "residual" = residuals.bind (fun r => r[p.epaths.idxOf e]?) ∧
        ∀ a ∈ ["data", "xpix", "ypix", "ierr", "D", "CW", "crpix", "crval"],
          readArray f e a = (p.attr a)[p.epaths.idxOf e]? := by
  set f0 : H5 V := fun q =>
      if q = ["epaths"] then some (.dataset (.paths p.epaths))
      else if q = ["ebands"] then some (.dataset (.names p.ebands))
      else if q = ["reference_coordinates"] then some (.dataset (.numbers p.ref))
      else none with hf0
  have hasc : ¬ (¬ (p.epaths.all fun e => e.all ascii) ∨ ¬ p.ebands.all ascii) := by
    simp only [List.all_eq_true, not_or, not_not]
    exact hc.ascii
  obtain ⟨hb1, hb2, hb3, hb4⟩ := hc.bands
  obtain ⟨f1, h1, hk1, hg1⟩ := bandGroups_spec p.bandlist f0 hb1 (by simp [hf0]) (by
    intro b hb
    have e1 : b ≠ "epaths" := fun h => hb2 (h ▸ hb)
    have e2 : b ≠ "ebands" := fun h => hb3 (h ▸ hb)
    have e3 : b ≠ "reference_coordinates" := fun h => hb4 (h ▸ hb)
    simp [hf0, e1, e2, e3])
  have htop : ∀ s : String, s ∉ p.bandlist → f1 [s] = f0 [s] := by
    intro s hs
    apply hk1
    intro b hb h
    simp only [List.cons.injEq, and_true] at h
    exact hs (h ▸ hb)
  have hs1 : Sound p f1 := by
    constructor
    · intro e he q hq d
      by_cases hqb : ∃ b ∈ p.bandlist, q = [b]
      · obtain ⟨b, hb, rfl⟩ := hqb
        rw [hg1 b hb]
        simp
      · rw [hk1 q fun b hb h => hqb ⟨b, hb, h⟩]
        obtain ⟨b, rest, rfl, h1, h2, h3⟩ := hc.top e he
        have : ∀ s : String, s ≠ b → q ≠ [s] := by
          rintro s hs rfl
          rw [List.cons_prefix_cons] at hq
          exact hs hq.1
        simp [hf0, this _ h1.symm, this _ h2.symm, this _ h3.symm]
    · have h0 : openFile f0 = some (p.epaths, p.ebands, p.ref) := by
        simp [openFile, hf0]
      rw [← h0]
      apply openFile_congr
      rintro s (rfl | rfl | rfl)
      · exact htop _ hb2
      · exact htop _ hb3
      · exact htop _ hb4
  have hnone : ∀ e ∈ p.epaths, ∀ n, f1 (e ++ [n]) = none := by
    intro e he n
    obtain ⟨b, rest, rfl, -⟩ := hc.top e he
    rw [hk1 _ (by intro c _ h; simp at h)]
    simp [hf0]
  obtain ⟨f2, h2, hs2, hk2, hv2⟩ := imsets_spec p hc ((residuals.map fun r => ("residual", r)).toList) f1 hs1
    (by rcases residuals with _ | r <;> simp)
    (by
      intro x hx
      rcases hr : residuals with _ | r
      · simp [hr] at hx
      · simp only [hr, Option.map_some, Option.toList_some, List.mem_singleton] at hx
        subst hx
        exact hres r hr)
    (fun x _ e he => hnone e he _)
  have hnames : ∀ a ∈ attrNames, a ≠ "residual" := by decide
  obtain ⟨f3, h3, hs3, hk3, hv3⟩ := imsets_spec p hc (attrNames.map fun a => (a, p.attr a)) f2 hs2
    (by simp [attrNames])
    (by
      intro x hx
      obtain ⟨a, ha, rfl⟩ := List.mem_map.mp hx
      exact hlen a ha)
    (by
      intro x hx e he
      obtain ⟨a, ha, rfl⟩ := List.mem_map.mp hx
      dsimp only
      rw [hk2 e he a, hnone e he]
      rcases residuals with _ | r
      · simp
      · simpa using hnames a ha)
  refine ⟨f3, ?_, hs3.top, ?_⟩
  · unfold writeResiduals
    rw [if_neg hasc]
    dsimp only
    rw [h1]
    dsimp only
    rw [h2]
    exact h3
  · intro e he
    constructor
    · unfold readArray
      rw [hk3 e he "residual" (by simp [attrNames])]
      rcases hr : residuals with _ | r
      · rw [hk2 e he "residual" (by simp [hr]), hnone e he]
        rfl
      · rw [hv2 ("residual", r) (by simp [hr]) e he]
        dsimp only
        rw [Option.bind_some]
        rcases r[p.epaths.idxOf e]? with _ | a <;> rfl
    · intro a ha
      unfold readArray
      rw [hv3 (a, p.attr a) (List.mem_map_of_mem ha) e he]
      dsimp only
      rcases (p.attr a)[p.epaths.idxOf e]? with _ | a <;> rfl

/-- C115 (every exposure). If moreover no two exposures have the same name, exposure number `k` is read as it was. -/
theorem C115_roundtrip_partial (p : Patch V) (hc : Clean p) (hnd : p.epaths.Nodup) (residuals : List (List V))
    (hlen : ∀ a ∈ ["data", "xpix", "ypix", "ierr", "D", "CW", "crpix", "crval"], (p.attr a).length = p.epaths.length)
    (hres : residuals.length = p.epaths.length) :
    ∃ f, writeResiduals p (some residuals) = .ok f ∧ openFile f = some (p.epaths, p.ebands, p.ref) ∧
      ∀ (k : Nat) (e : Path), p.epaths[k]? = some e → readArray f e "residual" = residuals[k]? ∧
        ∀ a ∈ ["data", "xpix", "ypix", "ierr", "D", "CW", "crpix", "crval"], readArray f e a = (p.attr a)[k]? := by
  obtain ⟨f, h1, h2, h3⟩ := C115_first p hc (some residuals) hlen (by rintro r h; cases h; exact hres)
  refine ⟨f, h1, h2, ?_⟩
  intro k e hk
  obtain ⟨hkl, hke⟩ := List.getElem?_eq_some_iff.mp hk
  have hi : p.epaths.idxOf e = k := by
    rw [← hke]
    exact hnd.idxOf_getElem k hkl
  have := h3 e (hke ▸ List.getElem_mem hkl)
  rw [hi] at this
  exact this

/-- C115 (images). The image cut out for exposure number `k` is made of the pixel coordinates and values of that
exposure. -/
theorem C115_cutout_partial (nan : ℚ) (p : Patch ℚ) (hc : Clean p) (hnd : p.epaths.Nodup)
    (residuals : List (List ℚ))
    (hlen : ∀ a ∈ ["data", "xpix", "ypix", "ierr", "D", "CW", "crpix", "crval"], (p.attr a).length = p.epaths.length)
    (hres : residuals.length = p.epaths.length) :
    ∃ f, writeResiduals p (some residuals) = .ok f ∧ ∀ (k : Nat) (x y d r : List ℚ),
      (p.attr "xpix")[k]? = some x → (p.attr "ypix")[k]? = some y → (p.attr "data")[k]? = some d →
      residuals[k]? = some r →
      makeExp nan f k "data" = populateImage nan ((x.zip y).zip d) ∧
      makeExp nan f k "residual" = populateImage nan ((x.zip y).zip r) := by
  obtain ⟨f, h1, h2, h3⟩ := C115_roundtrip_partial p hc hnd residuals hlen hres
  refine ⟨f, h1, ?_⟩
  intro k x y d r hx hy hd hr
  have hk : k < p.epaths.length := by
    rw [← hres]
    exact (List.getElem?_eq_some_iff.mp hr).1
  obtain ⟨h4, h5⟩ := h3 k _ (List.getElem?_eq_getElem hk)
  unfold makeExp
  rw [h2]
  dsimp only
  rw [List.getElem?_eq_getElem hk]
  dsimp only
  rw [h5 "xpix" (by simp), h5 "ypix" (by simp), h5 "data" (by simp), h4, hx, hy, hd, hr]
  exact ⟨rfl, rfl⟩

/-- C115 (what is written). A residual file is written exactly if the configuration asks for it; it holds the
residuals handed over, otherwise those of the model at the last position of the chain. -/
theorem C115_files (json : Option String) (wanted : Option Bool) (chain : List (List V)) (p : Patch V)
    (residualsAt : List V → List (List V)) (residual : Option (List (List V))) (w : Files V) :
    writeToDisk json wanted chain p residualsAt residual = .ok w ↔
      w.config = json ∧
      ((wanted = some true ∧ ∃ f r, w.residual = some f ∧ writeResiduals p (some r) = .ok f ∧
          (residual = some r ∨ (residual = none ∧ ∃ pre q, chain = pre ++ [q] ∧ r = residualsAt q))) ∨
        (wanted ≠ some true ∧ w.residual = none)) := by
  obtain ⟨wc, wr⟩ := w
  unfold writeToDisk
  by_cases hw : wanted = some true
  · subst hw
    simp only [Option.getD_some, if_true]
    rcases residual with _ | r
    · rcases hl : chain.getLast? with _ | q
      · have : chain = [] := by simpa using hl
        subst this
        simp
      · have hq := List.getLast?_eq_some_iff.mp hl
        obtain ⟨pre, hpre⟩ := hq
        rcases hf : writeResiduals p (some (residualsAt q)) with x | f
        · constructor
          · intro h; simp [hf, Except.map] at h
          · rintro ⟨-, ⟨-, f, r, -, h, (h' | ⟨-, pre', q', h', rfl⟩)⟩ | ⟨h, -⟩⟩
            · simp at h'
            · rw [hpre] at h'
              have := (List.append_inj' h' rfl).2
              simp only [List.cons.injEq, and_true] at this
              subst this
              rw [hf] at h
              simp at h
            · exact absurd rfl h
        · constructor
          · intro h
            simp only [hf, Except.map, Except.ok.injEq, Files.mk.injEq] at h
            obtain ⟨rfl, rfl⟩ := h
            exact ⟨rfl, Or.inl ⟨trivial, f, _, rfl, hf, Or.inr ⟨rfl, pre, q, hpre, rfl⟩⟩⟩
          · rintro ⟨h0, ⟨-, f', r, h1, h, (h' | ⟨-, pre', q', h', rfl⟩)⟩ | ⟨h, -⟩⟩
            · simp at h'
            · rw [hpre] at h'
              have := (List.append_inj' h' rfl).2
              simp only [List.cons.injEq, and_true] at this
              subst this
              rw [hf] at h
              simp only [Except.ok.injEq] at h
              subst h0 h1 h
              simp [hf, Except.map]
            · exact absurd rfl h
    · rcases hf : writeResiduals p (some r) with x | f
      · constructor
        · intro h; simp [hf, Except.map] at h
        · rintro ⟨-, ⟨-, f, r', -, h, (h' | ⟨h', -⟩)⟩ | ⟨h, -⟩⟩
          · simp only [Option.some.injEq] at h'
            subst h'
            rw [hf] at h
            simp at h
          · simp at h'
          · exact absurd rfl h
      · constructor
        · intro h
          simp only [hf, Except.map, Except.ok.injEq, Files.mk.injEq] at h
          obtain ⟨rfl, rfl⟩ := h
          exact ⟨rfl, Or.inl ⟨trivial, f, r, rfl, hf, Or.inl rfl⟩⟩
        · rintro ⟨h0, ⟨-, f', r', h1, h, (h' | ⟨h', -⟩)⟩ | ⟨h, -⟩⟩
          · simp only [Option.some.injEq] at h'
            subst h'
            rw [hf] at h
            simp only [Except.ok.injEq] at h
            subst h0 h1 h
            simp [hf, Except.map]
          · simp at h'
          · exact absurd rfl h
  · have : wanted.getD false = false := by
      rcases wanted with _ | _ | _ <;> simp_all
    simp only [this, Bool.false_eq_true, if_false, Except.ok.injEq, Files.mk.injEq, hw, false_and, false_or, ne_eq,
      not_false_eq_true, true_and]
    constructor
    · rintro ⟨rfl, rfl⟩; exact ⟨rfl, rfl⟩
    · rintro ⟨rfl, rfl⟩; exact ⟨rfl, rfl⟩

/-- Two exposures of two bands. -/
def exPatch : Patch ℚ where
  epaths := [["F090W", "a"], ["F115W", "a"]]
  ebands := ["F090W", "F115W"]
  bandlist := ["F090W", "F115W"]
  ref := [53, -27]
  attr := fun a => if a = "data" then [[1, 2], [3]] else [[0, 1], [5]]

theorem exPatch_clean : Clean exPatch := by
  constructor
  · constructor <;> decide +kernel
  · decide +kernel
  · intro e he
    have : e = ["F090W", "a"] ∨ e = ["F115W", "a"] := by simpa [exPatch] using he
    rcases this with rfl | rfl <;> exact ⟨_, _, rfl, by decide, by decide, by decide⟩
  · decide +kernel

example : ∃ f, writeResiduals exPatch (some [[7, 8], [9]]) = .ok f ∧
    readArray f ["F115W", "a"] "residual" = some [9] ∧ readArray f ["F090W", "a"] "data" = some [1, 2] := by
  obtain ⟨f, h1, -, h3⟩ := C115_roundtrip_partial exPatch exPatch_clean (by decide +kernel) [[7, 8], [9]]
    (by decide +kernel) rfl
  exact ⟨f, h1, (h3 1 _ rfl).1, (h3 0 _ rfl).2 "data" (by simp)⟩

/-- The same image given twice as a FITS file. -/
def exTwice : Patch ℚ := { exPatch with epaths := [["x.fits"], ["x.fits"]] }

/-- C115 (refuted for an exposure that appears twice). The second exposure of the same name is read with the pixels
and residuals of the first. -/
theorem C115_twice_refuted : ∃ f, writeResiduals exTwice (some [[7, 8], [9]]) = .ok f ∧
    openFile f = some ([["x.fits"], ["x.fits"]], ["F090W", "F115W"], [53, -27]) ∧
    exTwice.attr "data" = [[1, 2], [3]] ∧
    readArray f ["x.fits"] "data" = some [1, 2] ∧ readArray f ["x.fits"] "residual" = some [7, 8] := by
  have hcl : Clean exTwice := by
    constructor
    · constructor <;> decide +kernel
    · decide +kernel
    · intro e he
      have : e = ["x.fits"] := by simpa [exTwice] using he
      subst this
      exact ⟨_, _, rfl, by decide, by decide, by decide⟩
    · decide +kernel
  obtain ⟨f, h1, h2, h3⟩ := C115_first exTwice hcl (some [[7, 8], [9]]) (by decide +kernel) (by rintro r h; cases h; rfl)
  have := h3 ["x.fits"] (by decide +kernel)
  exact ⟨f, h1, h2, rfl, this.2 "data" (by simp), this.1⟩

end Forcepho.Postprocess.Saved
