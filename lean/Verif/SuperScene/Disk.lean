import Verif.SuperScene.Model
import Mathlib.Data.List.Infix

/-!
# C101: the state of a run on disk

Models `SuperScene.writeout`, `__enter__`, `__exit__` (`forcepho/superscene.py:84-96`) and
`run_metadata` (`forcepho/postprocess.py:170-197`) over a file system that maps path names to
contents.  Path names are lists of characters, so that Python's `str.replace` can be modelled.
The FITS and JSON encodings are not modelled: a catalog reads back as written, and JSON turns the
integer keys of `sourcelog` into their decimal strings.
-/

set_option autoImplicit false
set_option linter.unusedSectionVars false

namespace Forcepho.SuperScene.Disk

open Forcepho.SuperScene

variable {K B C : Type}

/-! ## Model -/

/-- Remove a prefix, `none` when the list does not start with it. -/
def stripPrefix : List Char → List Char → Option (List Char)
  | [], l => some l
  | _ :: _, [] => none
  | p :: ps, c :: cs => if p = c then stripPrefix ps cs else none

/-- Python's `str.replace(pat, new)` for a non-empty `pat`: left to right, without overlaps.  The
first argument bounds the recursion; `pyReplace` passes the length. -/
def replaceAux (pat new : List Char) : Nat → List Char → List Char
  | 0, l => l
  | _ + 1, [] => []
  | n + 1, c :: cs =>
    match stripPrefix pat (c :: cs) with
    | some rest => new ++ replaceAux pat new n rest
    | none => c :: replaceAux pat new n cs

/-- `s.replace(pat, new)`. -/
def pyReplace (pat new s : List Char) : List Char := replaceAux pat new s.length s

/-- The contents of a file. -/
inductive Content (K : Type) where
  /-- a FITS file with a catalog -/
  | catalog (rows : List (Row K))
  /-- a JSON file with the logs -/
  | logs (sourcelog : List (String × List String)) (patchlog : List String)
  /-- the JSON file with the configuration; only `scene_catalog` matters -/
  | config (sceneCatalog : Option (List Char))

/-- A file system. -/
abbrev Files (K : Type) := List Char → Option (Content K)

/-- Create or overwrite a file. -/
def Files.write (d : Files K) (p : List Char) (c : Content K) : Files K :=
  fun q => if q = p then some c else d q

/-- `".fits"` (`superscene.py:94`, `postprocess.py:189`). -/
def dotFits : List Char := ['.', 'f', 'i', 't', 's']

/-- `"_log.json"` (`superscene.py:94`, `postprocess.py:191`). -/
def logJson : List Char := ['_', 'l', 'o', 'g', '.', 'j', 's', 'o', 'n']

/-- `SuperScene.writeout(filename)` (`superscene.py:90-96`): the catalog, then the logs. -/
def writeout (d : Files K) (s : State K B C) (filename : List Char) : Files K :=
  (d.write filename (.catalog s.rows)).write (pyReplace dotFits logJson filename)
    (.logs (s.sourcelog.map fun e => (toString e.1, e.2)) s.patchlog)

/-- `with SuperScene(...) as sceneDB: body` (`superscene.py:84-88`): `__exit__` writes the state the
body left behind, whether or not the body raised, and returns `None`, so an exception of the body is
raised again. -/
def withScene {ε α : Type} (d : Files K) (s : State K B C) (filename : List Char)
    (body : State K B C → State K B C × Except ε α) : Files K × Except ε α :=
  let r := body s
  (writeout d r.1 filename, r.2)

/-- What `run_metadata` raises. -/
inductive ReadError where
  | fileNotFound
  | wrongContent
deriving DecidableEq

/-- `"/config.json"` (`postprocess.py:187`). -/
def slashConfig : List Char := ['/', 'c', 'o', 'n', 'f', 'i', 'g', '.', 'j', 's', 'o', 'n']

/-- `"superscene.fits"` (`postprocess.py:189`). -/
def defaultName : List Char :=
  ['s', 'u', 'p', 'e', 'r', 's', 'c', 'e', 'n', 'e', '.', 'f', 'i', 't', 's']

/-- `json.load` of the configuration (`postprocess.py:187-188`). -/
def readConfig (d : Files K) (p : List Char) : Except ReadError (Option (List Char)) :=
  match d p with
  | none => .error .fileNotFound
  | some (.config c) => .ok c
  | some _ => .error .wrongContent

/-- `json.load` of the logs (`postprocess.py:191-194`). -/
def readLogs (d : Files K) (p : List Char) :
    Except ReadError (List (String × List String) × List String) :=
  match d p with
  | none => .error .fileNotFound
  | some (.logs s l) => .ok (s, l)
  | some _ => .error .wrongContent

/-- `fits.getdata` (`postprocess.py:195`). -/
def readCatalog (d : Files K) (p : List Char) : Except ReadError (List (Row K)) :=
  match d p with
  | none => .error .fileNotFound
  | some (.catalog r) => .ok r
  | some _ => .error .wrongContent

/-- What `run_metadata` returns, without the configuration itself. -/
structure Metadata (K : Type) where
  plog : List String
  slog : List (String × List String)
  final : List (Row K)

/-- `run_metadata(root)` (`postprocess.py:187-197`). -/
def runMetadata (d : Files K) (root : List Char) : Except ReadError (Metadata K) :=
  match readConfig d (root ++ slashConfig) with
  | .error e => .error e
  | .ok c =>
    let scenestr := pyReplace dotFits [] (c.getD defaultName)
    match readLogs d (root ++ '/' :: (scenestr ++ logJson)) with
    | .error e => .error e
    | .ok l =>
      match readCatalog d (root ++ '/' :: (scenestr ++ dotFits)) with
      | .error e => .error e
      | .ok final => .ok ⟨l.2, l.1, final⟩

/-! ## Python's replace -/

theorem stripPrefix_append (p l : List Char) : stripPrefix p (p ++ l) = some l := by
  induction p with
  | nil => rfl
  | cons a p ih => simp [stripPrefix, ih]

theorem stripPrefix_some {p l r : List Char} (h : stripPrefix p l = some r) : l = p ++ r := by
  induction p generalizing l with
  | nil => simpa [stripPrefix] using h
  | cons a p ih =>
    cases l with
    | nil => simp [stripPrefix] at h
    | cons c cs =>
      simp only [stripPrefix] at h
      split at h
      · next e => rw [e, ih h, List.cons_append]
      · simp at h

/-- No occurrence of the pattern: nothing is replaced. -/
theorem pyReplace_absent {pat new s : List Char} (h : ¬ pat <:+: s) :
    pyReplace pat new s = s := by
  unfold pyReplace
  generalize hn : s.length = n
  have hn' : s.length ≤ n := hn.le
  clear hn
  induction n generalizing s with
  | zero => rfl
  | succ n ih =>
    cases s with
    | nil => rfl
    | cons c cs =>
      rw [replaceAux]
      cases e : stripPrefix pat (c :: cs) with
      | some r =>
        exact absurd ⟨[], r, by rw [List.nil_append]; exact (stripPrefix_some e).symm⟩ h
      | none =>
        simp only
        rw [ih (fun ⟨a, b, k⟩ => h ⟨c :: a, b, by rw [← k]; rfl⟩) (by simpa using hn')]

/-- A name that ends in ".fits" with no earlier occurrence: only the ending is replaced. -/
theorem pyReplace_ending {new s : List Char} (h : ¬ dotFits <:+: s) :
    pyReplace dotFits new (s ++ dotFits) = s ++ new := by
  unfold pyReplace
  have gen : ∀ n, (s ++ dotFits).length ≤ n →
      replaceAux dotFits new n (s ++ dotFits) = s ++ new := by
    intro n
    induction n generalizing s with
    | zero => intro hn; simp [dotFits] at hn
    | succ n ih =>
      intro hn
      cases s with
      | nil =>
        have e := stripPrefix_append dotFits []
        rw [List.append_nil] at e
        rw [List.nil_append, List.nil_append]
        have e' : stripPrefix dotFits ('.' :: ['f', 'i', 't', 's']) = some [] := e
        show replaceAux dotFits new (n + 1) ('.' :: ['f', 'i', 't', 's']) = new
        rw [replaceAux]
        simp only [e']
        cases n <;> simp [replaceAux]
      | cons c cs =>
        have hcs : ¬ dotFits <:+: cs := fun ⟨a, b, k⟩ => h ⟨c :: a, b, by rw [← k]; rfl⟩
        rw [List.cons_append, replaceAux]
        cases e : stripPrefix dotFits (c :: (cs ++ dotFits)) with
        | none =>
          simp only
          rw [ih hcs (by simpa using hn), List.cons_append]
        | some r =>
          exfalso
          have k := stripPrefix_some e
          -- an occurrence that starts before the ending would have '.' inside "fits"
          match cs, hcs, h, k with
          | [], _, _, k => simp [dotFits] at k
          | [a], _, _, k => simp [dotFits] at k
          | [a, b], _, _, k => simp [dotFits] at k
          | [a, b, x], _, _, k => simp [dotFits] at k
          | a :: b :: x :: y :: t, _, h, k =>
            apply h
            refine ⟨[], t, ?_⟩
            simp only [dotFits, List.cons_append, List.nil_append, List.cons.injEq] at k ⊢
            obtain ⟨k1, k2, k3, k4, k5, _⟩ := k
            exact ⟨k1.symm, k2.symm, k3.symm, k4.symm, k5.symm, trivial⟩
  exact gen _ le_rfl

/-! ## Decimal strings -/

theorem natToString_inj {m n : Nat} (h : toString m = toString n) : m = n := by
  have h' : Nat.repr m = Nat.repr n := h
  unfold Nat.repr at h'
  have h2 : Nat.toDigits 10 m = Nat.toDigits 10 n := by
    have := congrArg String.toList h'
    simpa using this
  have h3 := congrArg (fun l => Nat.ofDigitChars 10 l 0) h2
  simpa [Nat.ofDigitChars_toDigits] using h3

/-! ## Theorems -/

/-- Value of a key in a dictionary kept as an association list. -/
def dictGet {κ : Type} [DecidableEq κ] (l : List (κ × List String)) (k : κ) :
    Option (List String) :=
  (l.find? fun e => decide (e.1 = k)).map Prod.snd

theorem dictGet_json (l : List (Nat × List String)) (i : Nat) :
    dictGet (l.map fun e => (toString e.1, e.2)) (toString i) = dictGet l i := by
  induction l with
  | nil => rfl
  | cons e l ih =>
    unfold dictGet at ih ⊢
    rw [List.map_cons, List.find?_cons, List.find?_cons]
    by_cases k : e.1 = i
    · simp [k]
    · have k' : ¬ toString e.1 = toString i := fun h => k (natToString_inj h)
      simp only [k, k', decide_false]
      exact ih

/-- **C101, the files.**  When the name ends in ".fits" and has no other ".fits", `writeout` puts the
catalog under that name and the logs under the name with "_log.json" for the ending, and leaves every
other file alone. -/
theorem C101_files_partial (d : Files K) (s : State K B C) {base : List Char}
    (h : ¬ dotFits <:+: base) :
    writeout d s (base ++ dotFits) (base ++ dotFits) = some (.catalog s.rows) ∧
    (∃ sl, writeout d s (base ++ dotFits) (base ++ logJson) = some (.logs sl s.patchlog) ∧
      (∀ i : Nat, dictGet sl (toString i) = dictGet s.sourcelog i) ∧
      ∀ k ∈ sl.map Prod.fst, ∃ i ∈ s.sourcelog.map Prod.fst, k = toString i) ∧
    ∀ p, p ≠ base ++ dotFits → p ≠ base ++ logJson →
      writeout d s (base ++ dotFits) p = d p := by
  unfold writeout
  rw [pyReplace_ending h]
  unfold Files.write
  refine ⟨?_, ⟨_, if_pos rfl, dictGet_json s.sourcelog, ?_⟩, ?_⟩
  · have k : ¬ base ++ dotFits = base ++ logJson := by
      rw [List.append_cancel_left_eq]; simp [dotFits, logJson]
    rw [if_neg k, if_pos rfl]
  · intro k hk
    simp only [List.map_map, List.mem_map, Function.comp] at hk
    obtain ⟨e, he, rfl⟩ := hk
    exact ⟨e.1, List.mem_map_of_mem he, rfl⟩
  · intro p h1 h2
    rw [if_neg h2, if_neg h1]

/-- **C101, read back.**  After `writeout` to `root/name` with `name` the catalog name in the
configuration (or the default), `run_metadata(root)` returns the patch log, the catalog and, under
decimal keys, the source log of the state. -/
theorem C101_metadata_partial (d : Files K) (s : State K B C) {root stem : List Char}
    {c : Option (List Char)} (h : ¬ dotFits <:+: root ++ '/' :: stem)
    (hc : d (root ++ slashConfig) = some (.config c)) (hn : c.getD defaultName = stem ++ dotFits) :
    ∃ m, runMetadata (writeout d s (root ++ '/' :: (stem ++ dotFits))) root = .ok m ∧
      m.plog = s.patchlog ∧ m.final = s.rows ∧
      (∀ i : Nat, dictGet m.slog (toString i) = dictGet s.sourcelog i) ∧
      ∀ k ∈ m.slog.map Prod.fst, ∃ i ∈ s.sourcelog.map Prod.fst, k = toString i := by
  have assoc : ∀ x : List Char, root ++ '/' :: (stem ++ x) = (root ++ '/' :: stem) ++ x := by
    intro x; simp
  obtain ⟨hcat, ⟨sl, hlog, hkeys, honly⟩, hrest⟩ := C101_files_partial d s h
  rw [← assoc] at hcat hlog hrest
  have hstem : ¬ dotFits <:+: stem := fun ⟨a, b, k⟩ => h ⟨root ++ '/' :: a, b, by rw [← k]; simp⟩
  have hconf : writeout d s (root ++ '/' :: (stem ++ dotFits)) (root ++ slashConfig)
      = some (.config c) := by
    rw [hrest _ ?_ ?_, hc]
    · intro k
      rw [List.append_cancel_left_eq] at k
      have := congrArg List.getLast? k
      simp [slashConfig, dotFits, List.getLast?_cons, List.getLast?_append] at this
    · rw [← assoc]
      intro k
      rw [List.append_cancel_left_eq] at k
      have := congrArg (fun l => (l.reverse)[8]?) k
      simp [slashConfig, logJson] at this
  rw [← assoc] at hlog
  refine ⟨⟨s.patchlog, sl, s.rows⟩, ?_, rfl, rfl, hkeys, honly⟩
  unfold runMetadata readConfig readLogs readCatalog
  simp only [hconf, hn, pyReplace_ending hstem, List.append_nil, hlog, hcat]

/-- **C101, missing and wrong files.** With a configuration that names no file, the three files read are `config.json`,
`superscene_log.json` and `superscene.fits`; the first of them that is missing, or holds something else, is reported as such. -/
theorem C101_errors (d : Files K) (root : List Char) (c : Content K) (sl : List (String × List String)) (pl : List String) :
    (d (root ++ "/config.json".toList) = none → runMetadata d root = .error .fileNotFound) ∧
    (d (root ++ "/config.json".toList) = some (.logs sl pl) → runMetadata d root = .error .wrongContent) ∧
    (d (root ++ "/config.json".toList) = some (.config none) →
      (d (root ++ "/superscene_log.json".toList) = none → runMetadata d root = .error .fileNotFound) ∧
      (d (root ++ "/superscene_log.json".toList) = some (.config none) → runMetadata d root = .error .wrongContent) ∧
      (d (root ++ "/superscene_log.json".toList) = some (.logs sl pl) →
        (d (root ++ "/superscene.fits".toList) = none → runMetadata d root = .error .fileNotFound) ∧
        (d (root ++ "/superscene.fits".toList) = some c → (∀ r, c ≠ .catalog r) → runMetadata d root = .error .wrongContent))) := by
  have e1 : "/config.json".toList = slashConfig := by decide
  have e2 : "/superscene_log.json".toList = '/' :: (pyReplace dotFits [] defaultName ++ logJson) := by decide
  have e3 : "/superscene.fits".toList = '/' :: (pyReplace dotFits [] defaultName ++ dotFits) := by decide
  rw [e1, e2, e3]
  unfold runMetadata readConfig readLogs readCatalog
  refine ⟨fun h => by simp only [h], fun h => by simp only [h], fun h => ⟨fun h2 => ?_, fun h2 => ?_, fun h2 => ⟨fun h3 => ?_, fun h3 h4 => ?_⟩⟩⟩
  · simp only [h, Option.getD_none, h2]
  · simp only [h, Option.getD_none, h2]
  · simp only [h, Option.getD_none, h2, h3]
  · simp only [h, Option.getD_none, h2, h3]

/-- **C101, leaving the `with` block.**  Whether the body finished or raised, its outcome is passed
on and the catalog and logs on disk are those of the state it left. -/
theorem C101_exit {ε α : Type} (d : Files K) (s : State K B C) {base : List Char}
    (h : ¬ dotFits <:+: base) (body : State K B C → State K B C × Except ε α) :
    (withScene d s (base ++ dotFits) body).2 = (body s).2 ∧
    (withScene d s (base ++ dotFits) body).1 (base ++ dotFits) = some (.catalog (body s).1.rows) ∧
    ∃ sl, (withScene d s (base ++ dotFits) body).1 (base ++ logJson)
        = some (.logs sl (body s).1.patchlog) ∧
      ∀ i : Nat, dictGet sl (toString i) = dictGet (body s).1.sourcelog i := by
  obtain ⟨h1, ⟨sl, h2, h3, _⟩, _⟩ := C101_files_partial d (body s).1 h
  exact ⟨rfl, h1, sl, h2, h3⟩

/-- **C101 fails for names without ".fits".**  The logs then overwrite the catalog: after `writeout`
the file holds the logs, and no file holds the catalog that did not hold it before. -/
theorem C101_overwrite_refuted (d : Files K) (s : State K B C) {name : List Char}
    (h : ¬ dotFits <:+: name) :
    (∃ sl, writeout d s name name = some (.logs sl s.patchlog)) ∧
    ∀ p, writeout d s name p = some (.catalog s.rows) → d p = some (.catalog s.rows) := by
  unfold writeout
  rw [pyReplace_absent h]
  unfold Files.write
  refine ⟨⟨_, if_pos rfl⟩, ?_⟩
  intro p hp
  by_cases k : p = name
  · rw [if_pos k] at hp; simp at hp
  · rwa [if_neg k, if_neg k] at hp

/-- **C101 fails when the directory name contains ".fits".**  The directory part of the log name is
rewritten too, and `run_metadata` does not find the logs. -/
theorem C101_directory_refuted :
    ∃ (d : Files Int) (s : State Int Unit Unit) (root : List Char),
      d (root ++ slashConfig) = some (.config none) ∧
      runMetadata (writeout d s (root ++ '/' :: defaultName)) root = .error .fileNotFound := by
  refine ⟨fun p => if p = dotFits ++ slashConfig then some (.config none) else none,
    ⟨[], 0, 0, [], [], [], []⟩, dotFits, by simp, ?_⟩
  rfl

/-! ## Concrete cases -/

/-- The default name meets the hypothesis of the theorems. -/
example : ¬ dotFits <:+: "runs/superscene".toList := by decide

example : pyReplace dotFits logJson "runs/superscene.fits".toList
    = "runs/superscene_log.json".toList := by decide

/-- A state with a log of two patches, read back from disk. -/
example :
    let s : State Int Unit Unit := ⟨[], 0, 0, [], [], [(3, ["0", "1"]), (12, ["1"])], ["0", "1"]⟩
    let d : Files Int := fun p => if p = "r/config.json".toList then some (.config none) else none
    (runMetadata (writeout d s "r/superscene.fits".toList) ['r']).toOption.map
      (fun m => (m.plog, m.slog)) = some (["0", "1"], [("3", ["0", "1"]), ("12", ["1"])]) := by
  decide +kernel

end Forcepho.SuperScene.Disk
