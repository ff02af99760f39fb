import Verif.Storage.Ingest
import Verif.Chain.Props
import Verif.SuperScene.Disk
import Verif.Postprocess.CatalogProps

/-! # C153: the recipes of the documentation

Three recipes that the documentation gives to users, put on top of the models of the code they call:
the mask of an image (docs/inputs.rst), the fitting loop in one process (docs/usage.md) and the trace
of a parameter (docs/output.md). -/

set_option autoImplicit false

namespace Forcepho.Docs

/-! ## Masks -/

section
variable {K : Type} [Field K] [LinearOrder K] [IsStrictOrderedRing K]

open Storage

/-- The two forms of "a simple array of 0 and 1" (docs/inputs.rst:80-81): booleans, or integers with
the bit mask of the example configuration (docs/configuration.rst, `bitmask: 1`). -/
def simpleMask (boolean : Bool) (use : Nat → Nat → Bool) : Mask :=
  if boolean then .bool use else .int fun i j => if use i j then 1 else 0

/-- **C153, masks: refuted.**  The documentation says that pixels with 0 are not used and those with 1
are.  For every image with finite values and positive weights and every such mask it is the other way
round: the stored weight is zero where the mask is 1, and that of the pixel where it is 0. -/
theorem C153_mask_refuted (boolean : Bool) (use : Nat → Nat → Bool) (t : ImSet K) (s : Nat)
    (hm : t.mask = simpleMask boolean use) (hb : t.bkg = none)
    (him : ∀ i j, t.im i j ≠ none) (hie : ∀ i j, ∃ e, t.ierr i j = some e ∧ 0 < e)
    (hx : s ∣ t.nx) (hy : s ∣ t.ny) (hnx : t.nx ≤ 32768) (hny : t.ny ≤ 32768) :
    ∃ sp t', ingest s (t.nx, t.ny) 1 none t = .ok (sp, t') ∧
      ∀ ii jj k i j, at3 (pixelCoordinates s t.nx t.ny).1 ii jj k = some (some i) →
        at3 (pixelCoordinates s t.nx t.ny).2 ii jj k = some (some j) →
        ∃ w, at3 sp ii jj (s ^ 2 + k) = some w ∧
          (use i j = true → w = 0) ∧ (use i j = false → t.ierr i j = some w ∧ 0 < w) := by
  have hint : ∀ m, t.mask = .int m → (1 : Nat) ≠ 0 := fun _ _ => one_ne_zero
  have hflag : ∀ i j, Flagged t.mask 1 i j ↔ use i j = true := by
    intro i j
    rw [hm]
    cases boolean
    · simp only [simpleMask, Bool.false_eq_true, if_false, Flagged]
      constructor
      · rintro (⟨h, -⟩ | ⟨b, h1, -⟩)
        · exact absurd h one_ne_zero
        · by_contra hc
          rw [if_neg hc, Nat.zero_testBit] at h1
          exact absurd h1 (by simp)
      · intro h
        exact Or.inr ⟨0, by rw [if_pos h]; rfl, rfl⟩
    · simp [simpleMask, Flagged]
  have hun : ∀ i j, Unusable t 1 i j ↔ use i j = true := by
    intro i j
    obtain ⟨e, he, hpos⟩ := hie i j
    rw [Unusable, hflag]
    constructor
    · rintro (h | ⟨b, h, -⟩ | h | ⟨e', h, h'⟩ | h)
      · exact absurd h (him i j)
      · rw [hb] at h; cases h
      · rw [he] at h; cases h
      · rw [he] at h
        obtain rfl := Option.some.inj h
        exact absurd h' (not_lt.2 hpos.le)
      · exact h
    · intro h
      exact Or.inr (Or.inr (Or.inr (Or.inr h)))
  obtain ⟨sp, t', h1, h2⟩ := C39_weights_partial (nside := (t.nx, t.ny)) (conv := none) hint hx hy rfl rfl hnx
    hny
  refine ⟨sp, t', h1, ?_⟩
  intro ii jj k i j hi hj
  obtain ⟨v, w, -, hw, ho⟩ := h2 ii jj k i j hi hj
  refine ⟨w, hw, ?_, ?_⟩
  · intro hu
    exact (ho.unusable ((hun i j).2 hu)).1
  · intro hu
    obtain ⟨x, e, -, he, -, -, hwe⟩ := ho.usable (fun h => by rw [hun, hu] at h; cases h)
    obtain ⟨e', he', hpos⟩ := hie i j
    rw [he] at he'
    obtain rfl := Option.some.inj he'
    rw [hwe, he]
    simp [factor, hpos]

/-- Concrete: of two pixels the one marked 1 loses its weight. -/
example : ((ingest (K := ℚ) 1 (1, 2) 1 none ⟨1, 2, fun _ _ => some 5, fun _ _ => some 2,
    simpleMask false fun _ j => decide (j = 0), none⟩).toOption.map (·.1))
    = some [[[0, 0], [5, 2]]] := by decide +kernel

end

/-! ## Traces -/

section
variable {K : Type}

open Chain

/-- `chaincat[col][:, k]` (docs/output.md:168): a column of the catalog has one row per source and one
entry per iteration (utils/chain.py:44-46).  `none`: `IndexError` or no such column. -/
def traceRecipe (cat : ChainCat K) (col : String) (k : Nat) : Option (List K) :=
  if col ∈ cat.names ∧ k < cat.niter then some ((List.range cat.nsource).map fun s => cat.val s col k)
  else none

/-- **C153, traces: refuted.**  What the documentation plots as the trace of a flux of source `k` is the
value of that flux in sample `k` of the chain, for every source: one value per source, none of the other
samples.  With no more than `k` samples it fails. -/
theorem C153_trace_refuted [AddGroup K] (chain : Arr2 K) (bands shapes : List String) (active : List Int)
    (ref : K × K) (cat : ChainCat K) (h : makeChaincat chain bands active ref shapes = some cat)
    (j : Nat) (b : String) (hj : bands[j]? = some b) (hb : b ≠ "ra" ∧ b ≠ "dec") (k : Nat) :
    (k < chain.nrow → ∃ l, traceRecipe cat b k = some l ∧ l.length = active.length ∧
      ∀ s < active.length, l[s]? = some (chain.at_ k (s * (bands.length + shapes.length) + j))) ∧
    (chain.nrow ≤ k → traceRecipe cat b k = none) := by
  have hcol : (bands ++ shapes)[j]? = some b := by
    rw [List.getElem?_append_left (List.getElem?_eq_some_iff.1 hj).1]
    exact hj
  obtain ⟨h1, h2, -, -, h5⟩ := C59_cells chain bands shapes active ref cat h
  have hn : cat.names = bands ++ shapes := by
    unfold makeChaincat at h
    simp only at h
    split at h
    · cases h
    · split at h
      · cases h
      · split at h
        · cases h
        · split at h
          · cases h
          · split at h
            · cases h
            · obtain rfl := Option.some.inj h
              rfl
  constructor
  · intro hk
    refine ⟨_, if_pos ⟨by rw [hn]; exact List.mem_of_getElem? hcol, by rw [h2]; exact hk⟩, ?_, ?_⟩
    · rw [List.length_map, List.length_range, h1]
    · intro s hs
      rw [List.getElem?_map, List.getElem?_range (by rw [h1]; exact hs)]
      obtain ⟨-, h6⟩ := h5 s hs k hk j b hcol
      simp only [Option.map_some, h6, refOf, if_neg hb.1, if_neg hb.2, add_zero]
  · intro hk
    exact if_neg fun hc => absurd hc.2 (by rw [h2]; exact not_lt.2 hk)

/-- Two sources with one band, three samples numbered by hundreds: the "trace of the second source" is
the second sample of both. -/
example : ((makeChaincat (K := Int) ⟨3, 6, fun it p => 100 * it + p⟩ ["F"] [4, 7] (0, 0) ["ra", "dec"]).bind
    fun c => traceRecipe c "F" 1) = some [100, 103] := by decide +kernel

end

/-! ## The fitting loop -/

section
variable {K B C P : Type}

open SuperScene

/-- The files on disk, by name. -/
def put (disk : String → Option P) (name : String) (x : P) : String → Option P :=
  fun f => if f = name then some x else disk f

/-- What one round of the loop has at its end: the sources with their new parameters, the fixed
sources, the covariances and the chain. -/
structure Round (K C P : Type) where
  final : List (Row K)
  fixed : List (Row K)
  covs : List C
  out : P

/-- The loop of docs/usage.md:61-103 (and, with other names, demo/demo_pair/pair_fit.py:66-95), from
the results of the fits on: the chain is written to `<outroot>_samples.h5` (utils/io.py:38-43,
overwriting), and the sources are checked in with a `taskID`.  `outroot` and `task` give both for round
`k`.  `none`: an exception. -/
def loop (outroot task : Nat → String) (draws : Int) :
    Nat → List (Round K C P) → State K B C → (String → Option P) → Option (State K B C × (String → Option P))
  | _, [], s, disk => some (s, disk)
  | k, r :: rs, s, disk =>
    match checkin s ⟨r.final, some r.fixed, draws, some r.covs, none, some (task k)⟩ with
    | (_, some _) => none
    | (s', none) => loop outroot task draws (k + 1) rs s' (put disk (outroot k ++ "_samples.h5") r.out)

/-- The loop as documented: `write_to_disk(out, config.outroot, ...)` and `taskID=0` in every round
(docs/usage.md:94-98). -/
def documented (outroot : String) (draws : Int) (rs : List (Round K C P)) (s : State K B C)
    (disk : String → Option P) : Option (State K B C × (String → Option P)) :=
  loop (fun _ => outroot) (fun _ => "0") draws 0 rs s disk

/-- The loop with a file for every patch and its number in the log, as the tools for the output want it
(docs/output.md:28-31, demo/demo_pair/pair_fit.py:89-95). -/
def numbered (dir : String) (draws : Int) (rs : List (Round K C P)) (s : State K B C)
    (disk : String → Option P) : Option (State K B C × (String → Option P)) :=
  loop (fun k => dir ++ "/patch" ++ toString k) (fun k => toString k) draws 0 rs s disk

theorem checkin_log (s s' : State K B C) (a : CheckinArgs K B C) (h : checkin s a = (s', none)) :
    s'.patchlog = s.patchlog ++ a.taskID.toList ∧ s'.sourcelog = putLog s.sourcelog a.actIdx a.taskID := by
  unfold checkin at h
  simp only at h
  split at h
  · cases h
  · split at h
    · cases h
    · split at h
      · cases h
      · simp only [Prod.mk.injEq, and_true] at h
        subst h
        exact ⟨rfl, rfl⟩

theorem loop_log (outroot task : Nat → String) (draws : Int) (rs : List (Round K C P)) :
    ∀ (k : Nat) (s s' : State K B C) (disk disk' : String → Option P),
      loop outroot task draws k rs s disk = some (s', disk') →
      s'.patchlog = s.patchlog ++ (List.range rs.length).map (fun i => task (k + i)) := by
  induction rs with
  | nil =>
    intro k s s' disk disk' h
    simp only [loop, Option.some.injEq, Prod.mk.injEq] at h
    simp [h.1]
  | cons r rs ih =>
    intro k s s' disk disk' h
    rw [loop] at h
    split at h
    · cases h
    · rename_i s1 hc
      rw [ih _ _ _ _ _ h, (checkin_log _ _ _ hc).1]
      simp only [Option.toList_some, List.length_cons, List.range_succ_eq_map, List.map_cons, List.map_map,
        List.append_assoc, Nat.add_zero, List.singleton_append]
      congr 2
      refine List.map_congr_left fun i _ => ?_
      simp only [Function.comp]
      congr 1
      omega

theorem loop_disk (outroot task : Nat → String) (draws : Int) (rs : List (Round K C P)) :
    ∀ (k : Nat) (s s' : State K B C) (disk disk' : String → Option P),
      loop outroot task draws k rs s disk = some (s', disk') → ∀ f,
      (∃ (i : Nat) (r : Round K C P), rs[i]? = some r ∧ f = outroot (k + i) ++ "_samples.h5" ∧
        disk' f = some r.out ∧
        ∀ i', i < i' → i' < rs.length → f ≠ outroot (k + i') ++ "_samples.h5") ∨
      ((∀ i < rs.length, f ≠ outroot (k + i) ++ "_samples.h5") ∧ disk' f = disk f) := by
  induction rs with
  | nil =>
    intro k s s' disk disk' h f
    simp only [loop, Option.some.injEq, Prod.mk.injEq] at h
    exact Or.inr ⟨fun i hi => absurd hi (Nat.not_lt_zero _), by rw [h.2]⟩
  | cons r rs ih =>
    intro k s s' disk disk' h f
    rw [loop] at h
    split at h
    · cases h
    · rcases ih _ _ _ _ _ h f with ⟨i, r', h1, h2, h3, h4⟩ | ⟨h1, h2⟩
      · refine Or.inl ⟨i + 1, r', h1, ?_, h3, ?_⟩
        · rw [h2]; congr 2; omega
        · intro i' hi hl hf
          obtain ⟨i'', rfl⟩ : ∃ x, i' = x + 1 := ⟨i' - 1, by omega⟩
          refine h4 i'' (by omega) (by simpa using hl) ?_
          rw [hf]; congr 2; omega
      · by_cases hf : f = outroot k ++ "_samples.h5"
        · refine Or.inl ⟨0, r, rfl, hf, ?_, ?_⟩
          · rw [h2, put, if_pos hf]
          · intro i' hi hl hf'
            obtain ⟨i'', rfl⟩ : ∃ x, i' = x + 1 := ⟨i' - 1, by omega⟩
            refine h1 i'' (by simpa using hl) ?_
            rw [hf']; congr 2; omega
        · refine Or.inr ⟨?_, by rw [h2, put, if_neg hf]⟩
          intro i hi hf'
          cases i with
          | zero => exact hf hf'
          | succ i =>
            refine h1 i (by simpa using hi) ?_
            rw [hf']; congr 2; omega

theorem logGet_append (log : List (Nat × List String)) (sid : Nat) (pid : String) :
    logGet (logAppend log sid pid) sid = some ((logGet log sid).getD [] ++ [pid]) ∧
    ∀ x, x ≠ sid → logGet (logAppend log sid pid) x = logGet log x := by
  unfold logAppend
  split
  · rename_i h
    induction log with
    | nil => simp at h
    | cons e log ih =>
      by_cases he : e.1 = sid
      · refine ⟨by simp [logGet, he], ?_⟩
        intro x hx
        have hne : ¬ e.1 = x := fun hc => hx (hc.symm.trans he)
        by_cases hl : log.any (fun e => decide (e.1 = sid)) = true
        · have := (ih hl).2 x hx
          simp only [logGet, List.map_cons, he, if_true] at this ⊢
          rw [List.find?_cons_of_neg (by simpa using Ne.symm hx),
            List.find?_cons_of_neg (by simpa using hne)]
          exact this
        · have hid : (log.map fun e => if e.1 = sid then (e.1, e.2 ++ [pid]) else e) = log := by
            conv_rhs => rw [← List.map_id log]
            refine List.map_congr_left fun e' he' => ?_
            rw [if_neg]; rfl
            intro hc
            exact hl (List.any_eq_true.2 ⟨e', he', by simpa using hc⟩)
          simp only [logGet, List.map_cons, he, if_true, hid]
          rw [List.find?_cons_of_neg (by simpa using Ne.symm hx),
            List.find?_cons_of_neg (by simpa using hne)]
      · have hl : log.any (fun e => decide (e.1 = sid)) = true := by
          simpa [he] using h
        obtain ⟨h1, h2⟩ := ih hl
        refine ⟨?_, ?_⟩
        · simp only [logGet, List.map_cons, he, if_false] at h1 ⊢
          rw [List.find?_cons_of_neg (by simpa using he), List.find?_cons_of_neg (by simpa using he)]
          exact h1
        · intro x hx
          have := h2 x hx
          simp only [logGet, List.map_cons, he, if_false] at this ⊢
          by_cases hex : e.1 = x
          · rw [List.find?_cons_of_pos (by simpa using hex), List.find?_cons_of_pos (by simpa using hex)]
          · rw [List.find?_cons_of_neg (by simpa using hex), List.find?_cons_of_neg (by simpa using hex)]
            exact this
  · rename_i h
    have hno : log.find? (fun e => decide (e.1 = sid)) = none := by
      rw [List.find?_eq_none]
      intro e he hc
      exact h (List.any_eq_true.2 ⟨e, he, hc⟩)
    refine ⟨by simp [logGet, List.find?_append, hno], ?_⟩
    intro x hx
    simp [logGet, List.find?_append, Ne.symm hx]

/-- **C153, the loop: refuted.**  After the documented loop, whatever was fitted: the log of patches has
the number 0 once per round, there is at most one file of samples, that of the documented name, and it
holds the chain of the last round: the chains of all other rounds are gone.  All other files are as
before. -/
theorem C153_loop_refuted (outroot : String) (draws : Int) (rs : List (Round K C P)) (s s' : State K B C)
    (disk disk' : String → Option P) (h : documented outroot draws rs s disk = some (s', disk'))
    (last : Round K C P) (hl : rs.getLast? = some last) :
    s'.patchlog = s.patchlog ++ List.replicate rs.length "0" ∧
    disk' (outroot ++ "_samples.h5") = some last.out ∧
    (∀ f, f ≠ outroot ++ "_samples.h5" → disk' f = disk f) := by
  refine ⟨?_, ?_, ?_⟩
  · rw [loop_log _ _ _ _ _ _ _ _ _ h]
    congr 1
    rw [List.eq_replicate_iff]
    exact ⟨by simp, by simp⟩
  · rcases loop_disk _ _ _ _ _ _ _ _ _ h (outroot ++ "_samples.h5") with ⟨i, r, h1, -, h3, h4⟩ | ⟨h1, -⟩
    · have hi : i + 1 = rs.length := by
        have := (List.getElem?_eq_some_iff.1 h1).1
        by_contra hc
        exact h4 (i + 1) (by omega) (by omega) rfl
      rw [List.getLast?_eq_getElem?, show rs.length - 1 = i by omega, h1] at hl
      rw [h3, Option.some.inj hl]
    · have hne : 0 < rs.length := by
        cases rs with
        | nil => simp at hl
        | cons _ _ => simp
      exact absurd rfl (h1 0 hne)
  · intro f hf
    rcases loop_disk _ _ _ _ _ _ _ _ _ h f with ⟨i, r, -, h2, -⟩ | ⟨-, h2⟩
    · exact absurd h2 hf
    · exact h2

/-- Two rounds that fit the two sources of a catalog one after the other. -/
def exRow (i : Nat) : Row Int := ⟨i, i, true, false, 0, 0, ⟨[], 0, 0, 0, 0, 0, 0⟩⟩

/-- The state of the example: two active sources, nothing logged. -/
def exState : State Int Unit Unit :=
  { rows := [exRow 0, exRow 1], nActive := 2, nFixed := 0, sourcelog := [], patchlog := [],
    bounds := [(), ()], covs := [(), ()] }

/-- The rounds of the example: each checks out one source and has a chain, 10 and 20. -/
def exRounds : List (Round Int Unit Nat) := [⟨[exRow 0], [], [()], 10⟩, ⟨[exRow 1], [], [()], 20⟩]

/-- Concrete: after the documented loop the chain 10 of the first round is nowhere, and both sources are
logged as patch 0. -/
example : ((documented "out" 5 exRounds exState fun _ => none).map fun r =>
    (r.1.patchlog, r.1.sourcelog, r.2 "out_samples.h5"))
    = some (["0", "0"], [(0, ["0"]), (1, ["0"])], some 20) := by decide +kernel

/-- Concrete: with numbers both chains are there. -/
example : ((numbered "p" 5 exRounds exState fun _ => none).map fun r =>
    (r.1.patchlog, r.1.sourcelog, r.2 "p/patch0_samples.h5", r.2 "p/patch1_samples.h5"))
    = some (["0", "1"], [(0, ["0"]), (1, ["1"])], some 10, some 20) := by decide +kernel

/-- **C153, the log of sources.**  In every loop the log of a source gains the number of the round in
each round that fits it once, and nothing in the others; so in the documented loop all entries are 0. -/
theorem C153_sourcelog (task : String) (s s' : State K B C) (a : CheckinArgs K B C)
    (ha : a.taskID = some task) (h : checkin s a = (s', none)) (hn : a.actIdx.Nodup) (x : Nat) :
    logGet s'.sourcelog x = if x ∈ a.active.map (·.sourceIndex) then
      some ((logGet s.sourcelog x).getD [] ++ [task]) else logGet s.sourcelog x := by
  rw [(checkin_log _ _ _ h).2, ha]
  change _ = if x ∈ a.actIdx then _ else _
  simp only [putLog]
  generalize s.sourcelog = log
  generalize a.actIdx = ai at hn
  induction ai generalizing log with
  | nil => simp
  | cons k ai ih =>
    obtain ⟨h1, h2⟩ := List.nodup_cons.1 hn
    rw [List.foldl_cons, ih (logAppend log k task) h2]
    by_cases hx : x = k
    · subst hx
      rw [if_neg h1, if_pos (by simp), (logGet_append _ _ _).1]
    · rw [(logGet_append log k task).2 x hx]
      simp [hx]

/-- **C153, the loop with numbered patches.**  If every round writes to a file of its own and logs its
number, then reading the files in the order of the log, as the tools for the output do, gives the chains
of all rounds in order. -/
theorem C153_numbered (dir : String) (draws : Int) (rs : List (Round K C P)) (s s' : State K B C)
    (disk disk' : String → Option P) (h : numbered dir draws rs s disk = some (s', disk'))
    (hs : s.patchlog = []) :
    s'.patchlog.map (fun p => disk' (dir ++ "/patch" ++ p ++ "_samples.h5")) = rs.map fun r => some r.out := by
  rw [loop_log _ _ _ _ _ _ _ _ _ h, hs, List.nil_append]
  have hinj : ∀ a b : Nat, dir ++ "/patch" ++ toString a ++ "_samples.h5"
      = dir ++ "/patch" ++ toString b ++ "_samples.h5" → a = b := by
    intro a b hab
    have h1 := congrArg String.toList hab
    simp only [String.toList_append] at h1
    have h2 := List.append_cancel_left (List.append_cancel_right h1)
    have h3 : toString a = toString b := String.toList_inj.1 h2
    exact Disk.natToString_inj h3
  refine List.ext_getElem? fun i => ?_
  simp only [List.getElem?_map]
  by_cases hi : i < rs.length
  · rw [List.getElem?_range hi, List.getElem?_eq_getElem hi]
    simp only [Option.map_some, Nat.zero_add]
    rcases loop_disk _ _ _ _ _ _ _ _ _ h (dir ++ "/patch" ++ toString i ++ "_samples.h5") with
      ⟨i', r, h1, h2, h3, -⟩ | ⟨h1, -⟩
    · have := hinj _ _ h2
      rw [Nat.zero_add] at this
      subst this
      rw [h3]
      rw [List.getElem?_eq_getElem hi] at h1
      rw [Option.some.inj h1]
    · exact absurd (by rw [Nat.zero_add]) (h1 i hi)
  · rw [List.getElem?_eq_none (by simpa using hi), List.getElem?_eq_none (by simpa using hi)]
    rfl

/-- **C153, what is left of a documented run.**  The catalog of posterior samples made from the log of
`n` documented rounds, with the samples file under the name of patch 0, has the chains of the sources of
the last round only: the rows of all other sources are marked as never fitted. -/
theorem C153_catalog_refuted [Zero K] (read : Int → Option (Postprocess.Patch K)) (n nfinal : Nat)
    (cat : List (Postprocess.SampleRow K))
    (h : Postprocess.postsampleCatalog read (List.replicate n 0) nfinal none = .ok cat) (hn : 0 < n)
    (last : Postprocess.Patch K) (hl : read 0 = some last) (hs : 0 < last.nSample)
    (hok : Postprocess.Enough last.nSample last ∧ Postprocess.Proper last) :
    ∀ k : Nat, k < nfinal → (k : Int) ∉ last.index → ∃ row, cat[k]? = some row ∧ row.id = -1 := by
  have hmem : ∀ p ∈ List.replicate n (0 : Int), p = 0 := fun p hp => List.eq_of_mem_replicate hp
  obtain ⟨-, h2⟩ := Postprocess.C66_rows read _ nfinal cat h 0 last
    (by rw [List.head?_replicate, if_neg hn.ne']) hl hs
    (fun p hp s hsp => by
      rw [hmem p hp, hl] at hsp
      obtain rfl := Option.some.inj hsp
      exact hok)
  intro k hk hnot
  obtain ⟨row, h3, -, h5⟩ := h2 k hk
  refine ⟨row, h3, h5 ?_⟩
  intro q hq s' hs'
  rw [hmem q hq, hl] at hs'
  obtain rfl := Option.some.inj hs'
  exact hnot

/-- Two rounds, the file is that of the second, which fitted source 1. -/
def exLast : Int → Option (Postprocess.Patch Int) := fun p =>
  if p = 0 then some
    { bands := ["F"]
      shapes := []
      nSample := 1
      index := [1]
      ids := [11]
      wall := 3
      lnp := [5]
      chain := fun c => if c = "F" then some [[20]] else none }
  else none

example : ((Postprocess.postsampleCatalog exLast (List.replicate 2 0) 2 none).toOption.map fun c =>
    c.map (·.id)) = some [-1, 11] := by decide +kernel

end

end Forcepho.Docs
