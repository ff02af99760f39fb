import Verif.Slow.Multi
import Verif.Shear.Props

/-! # C80: the gradient of several stamps -/

set_option autoImplicit false
set_option linter.unusedSectionVars false

namespace Forcepho.Multi

open Forcepho.Kernel (Param)
open Forcepho.Sources (Source Scene Cls Attr Err paramIndices setAll setAllFrom nshape npos vecAttrs
  activeSources filterIndex_ok asserted_eq)

section algebra
variable {K : Type} [AddMonoid K]

lemma nadd_zero (x : Option K) : nadd x (some 0) = x := by
  cases x <;> simp [nadd]

lemma addAt_append (g : List (Option K)) (ps qs : List (Nat × Option K)) :
    addAt g (ps ++ qs) = (addAt g ps).bind fun g' => addAt g' qs := by
  induction ps generalizing g with
  | nil => rfl
  | cons p t ih =>
    obtain ⟨i, v⟩ := p
    simp only [List.cons_append, addAt]
    cases g[i]? with
    | none => rfl
    | some x => exact ih _

lemma addAt_shift (pre g : List (Option K)) (ps : List (Nat × Option K)) :
    addAt (pre ++ g) (ps.map fun p => (pre.length + p.1, p.2)) = (addAt g ps).map (pre ++ ·) := by
  induction ps generalizing g with
  | nil => rfl
  | cons p t ih =>
    obtain ⟨i, v⟩ := p
    simp only [List.map_cons, addAt]
    rw [List.getElem?_append_right (by omega), Nat.add_sub_cancel_left]
    cases hg : g[i]? with
    | none => rfl
    | some x =>
      simp only
      rw [List.set_append_right _ _ (by omega), Nat.add_sub_cancel_left]
      exact ih _

lemma addAt_post (g post : List (Option K)) (ps : List (Nat × Option K))
    (h : ∀ p ∈ ps, p.1 < g.length) :
    addAt (g ++ post) ps = (addAt g ps).map (· ++ post) := by
  induction ps generalizing g with
  | nil => rfl
  | cons p t ih =>
    obtain ⟨i, v⟩ := p
    have hi : i < g.length := h (i, v) (by simp)
    simp only [addAt]
    rw [List.getElem?_append_left hi, List.getElem?_eq_getElem hi]
    simp only
    rw [List.set_append_left _ _ hi]
    apply ih
    intro p hp
    rw [List.length_set]
    exact h p (by simp [hp])

lemma addAt_range (g vs : List (Option K)) (h : g.length = vs.length) :
    addAt g ((List.range vs.length).zip vs) = some (List.zipWith nadd g vs) := by
  induction vs generalizing g with
  | nil =>
    obtain rfl := List.length_eq_zero_iff.mp h
    rfl
  | cons v vs ih =>
    cases g with
    | nil => simp at h
    | cons x g =>
      have h' : g.length = vs.length := by simpa using h
      simp only [List.length_cons, List.range_succ_eq_map, List.zip_cons_cons, addAt,
        List.getElem?_cons_zero, List.set_cons_zero, List.zipWith_cons_cons]
      have := addAt_shift [nadd x v] g ((List.range vs.length).zip vs)
      rw [ih g h'] at this
      have e : (List.map Nat.succ (List.range vs.length)).zip vs =
          ((List.range vs.length).zip vs).map fun p => ([nadd x v].length + p.1, p.2) := by
        rw [List.zip_map_left]
        apply List.map_congr_left
        intro p _
        simp [Prod.map, Nat.add_comm]
      rw [e]
      simpa using this

lemma flux_part (names : List String) (hnd : names.Nodup) (flt : String) (i : Nat)
    (hi : names[i]? = some flt) (g : List (Option K)) (hl : g.length = names.length) (v : Option K) :
    addAt g [(i, v)] = some (List.zipWith nadd g (names.map fun f => if f = flt then v else some 0)) := by
  have hil : i < g.length := by
    rw [hl]; exact (List.getElem?_eq_some_iff.mp hi).1
  simp only [addAt, List.getElem?_eq_getElem hil, Option.some.injEq]
  apply List.ext_getElem?
  intro m
  rw [List.getElem?_zipWith, List.getElem?_map, List.getElem?_set]
  by_cases hm : i = m
  · subst hm
    rw [if_pos rfl, if_pos hil, hi, List.getElem?_eq_getElem hil]
    simp
  · rw [if_neg hm]
    rcases hg : g[m]? with _ | x
    · simp
    · have hml : m < names.length := by
        rw [← hl]; exact (List.getElem?_eq_some_iff.mp hg).1
      rw [List.getElem?_eq_getElem hml]
      have : names[m] ≠ flt := by
        intro he
        apply hm
        have h1 : names[m]? = some flt := by rw [List.getElem?_eq_getElem hml, he]
        have hl1 := (List.getElem?_eq_some_iff.mp hi).1
        exact (List.Nodup.getElem_inj_iff hnd (hi := hl1) (hj := hml)).mp (by
          rw [he]; exact (List.getElem?_eq_some_iff.mp hi).2)
      simp [this, nadd_zero]

/-- What one plan adds to the entries of one active source. -/
def block (flt : String) (row : Option (Param → K)) (s : Source K) : List (Option K) :=
  (s.filternames.map fun f => if f = flt then row.map (fun r => r .flux) else some 0) ++
    ((gradParams.drop 1).take (npos + nshape s.cls)).map fun p => row.map fun r => r p

/-- What one plan adds to the entries of a list of sources. -/
def contribs (pl : Plan K) (rows : List (Option (Param → K))) : Nat → List (Source K) → List (Option K)
  | _, [] => []
  | i, s :: t =>
    if pl.coverage s ≤ 1 then List.replicate s.nParams (some 0) ++ contribs pl rows i t
    else block pl.filtername (rows[i]?.getD none) s ++ contribs pl rows (i + 1) t

/-- The source classes whose parameters are those of the kernel, in its order. -/
def Usual : Cls → Prop
  | .star | .simple | .galaxy _ => True
  | _ => False

lemma nparams_usual (s : Source K) : s.nParams = s.nBands + (npos + nshape s.cls) := by
  unfold Source.nParams; omega

lemma shape_le (c : Cls) : npos + nshape c ≤ 6 := by
  cases c with
  | galaxy b => cases b <;> decide
  | conformal b => cases b <;> decide
  | _ => decide

lemma block_length (flt : String) (row : Option (Param → K)) (s : Source K) :
    (block flt row s).length = s.nParams := by
  have := shape_le s.cls
  rw [nparams_usual]
  simp [block, gradParams, Source.nBands]
  omega

lemma contribs_length (pl : Plan K) (rows : List (Option (Param → K))) (t : List (Source K)) :
    ∀ i, (contribs pl rows i t).length = (t.map (·.nParams)).sum := by
  induction t with
  | nil => intro i; rfl
  | cons s t ih =>
    intro i
    simp only [contribs, List.map_cons, List.sum_cons]
    split
    · simp [ih]
    · simp [ih, block_length]

lemma gather_append (rows : List (Option (Param → K))) (a b : List Nat) (x y : List (Option K))
    (ha : gather rows a = some x) (hb : gather rows b = some y) : gather rows (a ++ b) = some (x ++ y) := by
  induction a generalizing x with
  | nil =>
    simp only [gather, Option.some.injEq] at ha
    subst ha
    simpa using hb
  | cons k t ih =>
    simp only [List.cons_append, gather] at ha ⊢
    cases hk : flatAt rows k with
    | none => rw [hk] at ha; simp at ha
    | some v =>
      rw [hk] at ha
      cases ht : gather rows t with
      | none => rw [ht] at ha; simp at ha
      | some vs =>
        rw [ht] at ha
        simp only [Option.some.injEq] at ha
        subst ha
        rw [ih vs ht]
        rfl

lemma flatAt_eq (rows : List (Option (Param → K))) (i k : Nat) (row : Option (Param → K))
    (hr : rows[i]? = some row) (p : Param) (hp : gradParams[k]? = some p) :
    flatAt rows (i * 7 + k) = some (row.map fun r => r p) := by
  have hk : k < 7 := by
    have := (List.getElem?_eq_some_iff.mp hp).1
    simpa [gradParams] using this
  have h1 : (i * 7 + k) / 7 = i := by omega
  have h2 : (i * 7 + k) % 7 = k := by omega
  simp only [flatAt, h1, h2, hr, hp]

lemma gather_list (rows : List (Option (Param → K))) (i : Nat) (row : Option (Param → K))
    (hr : rows[i]? = some row) (l : List Nat) (hl : ∀ k ∈ l, k < 7) :
    gather rows (l.map fun k => i * 7 + k) =
      some (l.map fun k => row.map fun r => r (gradParams[k]?.getD .flux)) := by
  induction l with
  | nil => rfl
  | cons k t ih =>
    have hk := hl k (by simp)
    have hp : gradParams[k]? = some (gradParams[k]?.getD .flux) := by
      have : k < gradParams.length := by simpa [gradParams] using hk
      rw [List.getElem?_eq_getElem this]
      rfl
    simp only [List.map_cons, gather, flatAt_eq rows i k row hr _ hp,
      ih fun k hk => hl k (by simp [hk])]

lemma gather_inds (rows : List (Option (Param → K))) (i : Nat) (row : Option (Param → K))
    (hr : rows[i]? = some row) (c : Cls) :
    gather rows (gradInds i c) = some (row.map (fun r => r .flux) ::
      ((gradParams.drop 1).take (npos + nshape c)).map fun p => row.map fun r => r p) := by
  unfold gradInds
  rw [← List.map_take, gather_list rows i row hr _ (by
    intro k hk
    simpa using List.mem_of_mem_take hk)]
  cases c with
  | galaxy b => cases b <;> rfl
  | conformal b => cases b <;> rfl
  | _ => rfl

/-- Adding the derivatives of one source. -/
lemma block_add (s : Source K) (hnd : s.filternames.Nodup) (flt : String) (fi : Nat)
    (hfi : s.filternames[fi]? = some flt) (row : Option (Param → K)) (blk : List (Option K))
    (hb : blk.length = s.nParams) :
    addAt blk ((fi :: (List.range (s.nParams - s.nBands)).map fun k => s.nBands + k).zip
      (row.map (fun r => r .flux) ::
        ((gradParams.drop 1).take (npos + nshape s.cls)).map fun p => row.map fun r => r p)) =
      some (List.zipWith nadd blk (block flt row s)) := by
  have hsh := shape_le s.cls
  have hnp := nparams_usual s
  have hsplit : blk = blk.take s.nBands ++ blk.drop s.nBands := (List.take_append_drop _ _).symm
  have hF : (blk.take s.nBands).length = s.nBands := by rw [List.length_take]; omega
  have hA : (blk.drop s.nBands).length = npos + nshape s.cls := by rw [List.length_drop]; omega
  have hfil : fi < s.nBands := (List.getElem?_eq_some_iff.mp hfi).1
  have hvl : (((gradParams.drop 1).take (npos + nshape s.cls)).map fun p =>
      row.map fun r => r p).length = npos + nshape s.cls := by
    simp [gradParams]; omega
  rw [List.zip_cons_cons, ← List.singleton_append, addAt_append]
  conv_lhs => rw [hsplit]
  rw [addAt_post _ _ _ (by simp only [List.mem_singleton]; rintro p rfl; rw [hF]; exact hfil),
    flux_part s.filternames hnd flt fi hfi _ (by rw [hF]; rfl)]
  simp only [Option.map_some, Option.bind_some]
  have hlen : (List.zipWith nadd (blk.take s.nBands)
      (s.filternames.map fun f => if f = flt then row.map (fun r => r .flux) else some 0)).length =
      s.nBands := by
    rw [List.length_zipWith, hF, List.length_map]
    exact Nat.min_self _
  generalize hZ : List.zipWith nadd (blk.take s.nBands)
      (s.filternames.map fun f => if f = flt then row.map (fun r => r .flux) else some 0) = Z at hlen ⊢
  generalize hV : (((gradParams.drop 1).take (npos + nshape s.cls)).map fun p =>
      row.map fun r => r p) = V at hvl ⊢
  have e : ((List.range (s.nParams - s.nBands)).map fun k => s.nBands + k).zip V =
      ((List.range V.length).zip V).map fun p => (Z.length + p.1, p.2) := by
    rw [List.zip_map_left, hlen, hvl]
    have : s.nParams - s.nBands = npos + nshape s.cls := by omega
    rw [this]
    rfl
  rw [e, addAt_shift, addAt_range _ _ (by rw [hA, hvl])]
  simp only [Option.map_some, Option.some.injEq]
  unfold block
  rw [hV]
  conv_rhs => rw [hsplit]
  rw [List.zipWith_append (by rw [hF, List.length_map]; rfl), hZ]

/-- The number of parameters of the first sources. -/
def off (sc : List (Source K)) : Nat := (sc.map (·.nParams)).sum

/-- The active sources of a plan: specification. -/
def actives (pl : Plan K) (sc : List (Source K)) : List (Source K) :=
  sc.filter fun s => decide (1 < pl.coverage s)

/-- The fixed sources of a plan: specification. -/
def fixeds (pl : Plan K) (sc : List (Source K)) : List (Source K) :=
  sc.filter fun s => decide (pl.coverage s = 1)

/-- A scene the plan can be made for. -/
structure Fits (pl : Plan K) (sc : List (Source K)) : Prop where
  free : ∀ s ∈ sc, s.fixed = false
  names : ∀ s ∈ sc, s.filternames.Nodup
  has : ∀ s ∈ sc, pl.filtername ∈ s.filternames

lemma inds_ok (sc : List (Source K)) (pl : Plan K) (hf : Fits pl sc) (j : Nat) (s : Source K)
    (hs : sc[j]? = some s) :
    ∃ fi : Nat, s.filterIndex pl.filtername = .ok fi ∧ s.filternames[fi]? = some pl.filtername ∧
      fi < s.nBands ∧
      paramIndices sc j (some pl.filtername) = .ok
        ((fi :: (List.range (s.nParams - s.nBands)).map fun k => s.nBands + k).map
          fun x => off (sc.take j) + x) := by
  have hm := List.mem_of_getElem? hs
  obtain ⟨fi, h1, h2, h3⟩ := filterIndex_ok s pl.filtername (hf.has s hm)
  refine ⟨fi, h1, h3, h2, ?_⟩
  have hA : activeSources sc = sc := by
    unfold activeSources
    rw [List.filter_eq_self]
    intro x hx
    simp [hf.free x hx]
  simp only [paramIndices, hs, h1, hA, off, List.map_cons, List.map_map, Except.ok.injEq,
    List.cons.injEq, true_and]
  apply List.map_congr_left
  intro k _
  simp [Nat.add_assoc]

lemma gather_length (rows : List (Option (Param → K))) (l : List Nat) :
    ∀ v, gather rows l = some v → v.length = l.length := by
  induction l with
  | nil => intro v h; simp only [gather, Option.some.injEq] at h; subst h; rfl
  | cons k t ih =>
    intro v h
    simp only [gather] at h
    cases hk : flatAt rows k with
    | none => rw [hk] at h; simp at h
    | some x =>
      rw [hk] at h
      cases ht : gather rows t with
      | none => rw [ht] at h; simp at h
      | some xs =>
        rw [ht] at h
        simp only [Option.some.injEq] at h
        subst h
        simp [ih xs ht]

lemma planLoop_ok (sc : List (Source K)) (pl : Plan K) (hf : Fits pl sc)
    (rows : List (Option (Param → K))) : ∀ (t : List (Source K)) (j i : Nat), sc.drop j = t →
    i + (actives pl t).length ≤ rows.length →
    ∃ ti gi vals, planLoop sc pl j i t = .ok (actives pl t, fixeds pl t, ti, gi) ∧
      gather rows gi = some vals ∧ ti.length = gi.length ∧ ti.Nodup ∧
      (∀ x ∈ ti, off (sc.take j) ≤ x) ∧
      ∀ pre rest : List (Option K), pre.length = off (sc.take j) → rest.length = off t →
        addAt (pre ++ rest) (ti.zip vals) = some (pre ++ List.zipWith nadd rest (contribs pl rows i t)) := by
  intro t
  induction t with
  | nil =>
    intro j i _ _
    refine ⟨[], [], [], rfl, rfl, rfl, by simp, by simp, ?_⟩
    intro pre rest _ hr
    have : rest = [] := List.length_eq_zero_iff.mp (by simpa [off] using hr)
    subst this
    simp [addAt, contribs]
  | cons s t ih =>
    intro j i hd hrow
    have hs : sc[j]? = some s := by
      have := congrArg (fun l => l[0]?) hd
      simpa using this
    have hd' : sc.drop (j + 1) = t := by
      have := congrArg List.tail hd
      simpa using this
    have hoff : off (sc.take (j + 1)) = off (sc.take j) + s.nParams := by
      unfold off
      rw [List.take_add_one, hs]; simp
    have hm := List.mem_of_getElem? hs
    -- a source that is not active
    have skip : ∀ (ti : List Nat) (vals : List (Option K)), pl.coverage s ≤ 1 →
        (∀ x ∈ ti, off (sc.take (j + 1)) ≤ x) →
        (∀ pre rest : List (Option K), pre.length = off (sc.take (j + 1)) → rest.length = off t →
          addAt (pre ++ rest) (ti.zip vals) =
            some (pre ++ List.zipWith nadd rest (contribs pl rows i t))) →
        (∀ x ∈ ti, off (sc.take j) ≤ x) ∧
        ∀ pre rest : List (Option K), pre.length = off (sc.take j) → rest.length = off (s :: t) →
          addAt (pre ++ rest) (ti.zip vals) =
            some (pre ++ List.zipWith nadd rest (contribs pl rows i (s :: t))) := by
      intro ti vals hc hlo hadd
      refine ⟨fun x hx => by have := hlo x hx; omega, ?_⟩
      intro pre rest hp hr
      have hr' : rest.length = s.nParams + off t := by simpa [off] using hr
      have hsp : rest = rest.take s.nParams ++ rest.drop s.nParams := (List.take_append_drop _ _).symm
      have ht : (rest.take s.nParams).length = s.nParams := by rw [List.length_take]; omega
      have := hadd (pre ++ rest.take s.nParams) (rest.drop s.nParams)
        (by rw [List.length_append, ht, hoff, hp]) (by rw [List.length_drop]; omega)
      rw [List.append_assoc, ← hsp] at this
      rw [this]
      simp only [contribs, if_pos hc, Option.some.injEq]
      rw [List.append_assoc]
      congr 1
      conv_rhs => rw [hsp]
      rw [List.zipWith_append (by rw [ht, List.length_replicate])]
      congr 1
      apply List.ext_getElem?
      intro m
      rw [List.getElem?_zipWith, List.getElem?_replicate]
      rcases hg : (rest.take s.nParams)[m]? with _ | x
      · simp
      · have : m < s.nParams := by
          rw [← ht]; exact (List.getElem?_eq_some_iff.mp hg).1
        simp [this, nadd_zero]
    by_cases h0 : pl.coverage s ≤ 0
    · have ha : actives pl (s :: t) = actives pl t := by
        simp [actives, show ¬ (1 < pl.coverage s) by omega]
      have hx : fixeds pl (s :: t) = fixeds pl t := by
        simp [fixeds, show ¬ (pl.coverage s = 1) by omega]
      rw [ha] at hrow
      obtain ⟨ti, gi, vals, e1, e2, e3, e4, e5, e6⟩ := ih (j + 1) i hd' hrow
      obtain ⟨f1, f2⟩ := skip ti vals (by omega) e5 e6
      refine ⟨ti, gi, vals, ?_, e2, e3, e4, f1, f2⟩
      simp only [planLoop, if_pos h0, e1, ha, hx]
    · obtain ⟨fi, g1, g2, g3, g4⟩ := inds_ok sc pl hf j s hs
      by_cases h1 : pl.coverage s = 1
      · have ha : actives pl (s :: t) = actives pl t := by
          simp [actives, show ¬ (1 < pl.coverage s) by omega]
        have hx : fixeds pl (s :: t) = s :: fixeds pl t := by
          simp [fixeds, h1]
        rw [ha] at hrow
        obtain ⟨ti, gi, vals, e1, e2, e3, e4, e5, e6⟩ := ih (j + 1) i hd' hrow
        obtain ⟨f1, f2⟩ := skip ti vals (by omega) e5 e6
        refine ⟨ti, gi, vals, ?_, e2, e3, e4, f1, f2⟩
        simp only [planLoop, if_neg h0, g1, if_pos h1, e1, ha, hx]
      · have ha : actives pl (s :: t) = s :: actives pl t := by
          simp [actives, show 1 < pl.coverage s by omega]
        have hx : fixeds pl (s :: t) = fixeds pl t := by
          simp [fixeds, h1]
        rw [ha, List.length_cons] at hrow
        obtain ⟨ti, gi, vals, e1, e2, e3, e4, e5, e6⟩ := ih (j + 1) (i + 1) hd' (by omega)
        have hil : i < rows.length := by omega
        have hri : rows[i]? = some rows[i] := List.getElem?_eq_getElem hil
        generalize hrowd : rows[i] = row at hri
        have hgi := gather_inds rows i row hri s.cls
        have hshape := shape_le s.cls
        have hnp := nparams_usual s
        refine ⟨(fi :: (List.range (s.nParams - s.nBands)).map fun k => s.nBands + k).map
            (fun x => off (sc.take j) + x) ++ ti, _, _, ?_, gather_append rows _ _ _ _ hgi e2,
            ?_, ?_, ?_, ?_⟩
        · simp only [planLoop, if_neg h0, g1, if_neg h1, g4, e1, ha, hx]
        · simp only [List.length_append, List.length_map, List.length_cons, List.length_range, e3,
            gradInds, List.length_take]
          omega
        · rw [List.nodup_append]
          refine ⟨?_, e4, ?_⟩
          · apply List.Nodup.map (fun a b h => by simpa using h)
            rw [List.nodup_cons]
            refine ⟨?_, List.Nodup.map (fun a b h => by simpa using h) List.nodup_range⟩
            simp only [List.mem_map, not_exists, not_and]
            intro x _
            omega
          · intro a hA b hB hab
            have := e5 b hB
            simp only [List.mem_map, List.mem_cons, List.mem_range] at hA
            obtain ⟨x, hx1, rfl⟩ := hA
            rcases hx1 with rfl | ⟨k, hk, rfl⟩ <;> omega
        · intro x hx
          rw [List.mem_append] at hx
          rcases hx with hx | hx
          · simp only [List.mem_map] at hx
            obtain ⟨y, -, rfl⟩ := hx
            omega
          · have := e5 x hx
            omega
        · intro pre rest hp hr
          have hr' : rest.length = s.nParams + off t := by simpa [off] using hr
          have hsp : rest = rest.take s.nParams ++ rest.drop s.nParams :=
            (List.take_append_drop _ _).symm
          have ht : (rest.take s.nParams).length = s.nParams := by rw [List.length_take]; omega
          rw [List.zip_append (by
            have := gather_length rows _ _ hgi
            rw [this]
            simp only [List.length_map, List.length_cons, List.length_range, gradInds, List.length_take]
            omega), addAt_append, List.zip_map_left]
          have hsh := addAt_shift pre rest ((fi :: (List.range (s.nParams - s.nBands)).map
            fun k => s.nBands + k).zip (row.map (fun r => r .flux) ::
              ((gradParams.drop 1).take (npos + nshape s.cls)).map fun p => row.map fun r => r p))
          rw [hp] at hsh
          have hadd := block_add s (hf.names s hm) pl.filtername fi g2 row _ ht
          have hpost := addAt_post (rest.take s.nParams) (rest.drop s.nParams)
            ((fi :: (List.range (s.nParams - s.nBands)).map
            fun k => s.nBands + k).zip (row.map (fun r => r .flux) ::
              ((gradParams.drop 1).take (npos + nshape s.cls)).map fun p => row.map fun r => r p)) (by
            intro p hpz
            have := (List.of_mem_zip (show (p.1, p.2) ∈ _ from hpz)).1
            rw [ht]
            simp only [List.mem_cons, List.mem_map, List.mem_range] at this
            rcases this with h | ⟨k, hk, h⟩ <;> omega)
          rw [← hsp, hadd] at hpost
          rw [hpost] at hsh
          simp only [Option.map_some] at hsh
          have hfin := e6 (pre ++ List.zipWith nadd (rest.take s.nParams)
            (block pl.filtername row s)) (rest.drop s.nParams) (by
              rw [List.length_append, List.length_zipWith, ht, block_length, hoff, hp, Nat.min_self])
              (by rw [List.length_drop]; omega)
          have hmap : ∀ z : List (Nat × Option K), List.map (Prod.map (fun x => off (sc.take j) + x) id) z =
              List.map (fun p => (off (sc.take j) + p.1, p.2)) z := fun z => rfl
          rw [hmap, hsh, Option.bind_some]
          rw [List.append_assoc] at hfin
          rw [hfin]
          have hc : ¬ pl.coverage s ≤ 1 := by omega
          simp only [contribs, if_neg hc, hri, Option.getD_some, Option.some.injEq]
          rw [List.append_assoc]
          congr 1
          conv_rhs => rw [hsp]
          rw [List.zipWith_append (by rw [ht, block_length])]

/-- What `lnlike_multi` has computed after the plans. -/
def sumLnp (sc : List (Source K)) (plans : List (Plan K)) (l : K) : K :=
  plans.foldl (fun l pl => l + (pl.lnlike (actives pl sc) (fixeds pl sc)).1) l

/-- The gradient after the plans. -/
def sumGrad (sc : List (Source K)) (plans : List (Plan K)) (g : List (Option K)) : List (Option K) :=
  plans.foldl (fun g pl => List.zipWith nadd g
    (contribs pl (pl.lnlike (actives pl sc) (fixeds pl sc)).2 0 sc)) g

lemma plansLoop_ok (sc : List (Source K)) (plans : List (Plan K)) (hf : ∀ pl ∈ plans, Fits pl sc)
    (hlen : ∀ pl ∈ plans, ∀ a f, (pl.lnlike a f).2.length = a.length) :
    ∀ (l : K) (g : List (Option K)), g.length = off sc →
      plansLoop sc plans l g = .ok (sumLnp sc plans l, sumGrad sc plans g) := by
  induction plans with
  | nil => intro l g _; rfl
  | cons pl t ih =>
    intro l g hg
    obtain ⟨ti, gi, vals, e1, e2, e3, e4, e5, e6⟩ := planLoop_ok sc pl (hf pl (by simp))
      (pl.lnlike (actives pl sc) (fixeds pl sc)).2 sc 0 0 rfl (by rw [hlen pl (by simp)]; omega)
    have hadd := e6 [] g rfl hg
    simp only [List.nil_append] at hadd
    simp only [plansLoop, planSources, e1, if_pos e4, e2, hadd]
    rw [ih (fun q hq => hf q (by simp [hq])) (fun q hq => hlen q (by simp [hq]))]
    · rfl
    · rw [List.length_zipWith, contribs_length, hg]
      exact Nat.min_self _

/-- A source with its vector stored. -/
def applyV (s : Source K) (v : List K) : Source K :=
  { s with flux := v.take s.nBands
           attr := Sources.setAttrs s.attr ((vecAttrs s.cls).zip (v.drop s.nBands)) }

/-- A scene with its vector stored. -/
def setL : List K → List (Source K) → List (Source K)
  | _, [] => []
  | th, s :: t => applyV s (th.take s.nParams) :: setL (th.drop s.nParams) t

/-- Scenes whose vectors are consistent: no fixed sources. -/
structure Ready (sc : List (Source K)) : Prop where
  free : ∀ s ∈ sc, s.fixed = false
  wf : ∀ s ∈ sc, s.WF
  nobase : ∀ s ∈ sc, s.cls ≠ .base

lemma vecAttrs_length (s : Source K) (hb : s.cls ≠ .base) : (vecAttrs s.cls).length = npos + nshape s.cls := by
  obtain ⟨c, _, _, _, _, _⟩ := s
  cases c with
  | galaxy b => cases b <;> rfl
  | conformal b => cases b <;> rfl
  | base => exact absurd rfl hb
  | _ => rfl

lemma setAllFrom_eq (th : List K) : ∀ (sc : List (Source K)) (start : Nat), Ready sc →
    start + off sc ≤ th.length → setAllFrom th sc start = (setL (th.drop start) sc, none) := by
  intro sc
  induction sc with
  | nil => intros; rfl
  | cons s t ih =>
    intro start hr hl
    have hl' : start + s.nParams + off t ≤ th.length := by
      have : off (s :: t) = s.nParams + off t := by simp [off]
      omega
    have hwf : s.flux.length = s.filternames.length := hr.wf s (by simp)
    have hnp := nparams_usual s
    have hva := vecAttrs_length s (hr.nobase s (by simp))
    have hvl : ((th.take (start + s.nParams)).drop start).length = s.nParams := by
      rw [List.length_drop, List.length_take]; omega
    have hset : s.setParams ((th.take (start + s.nParams)).drop start) none =
        (applyV s ((th.take (start + s.nParams)).drop start), none) := by
      have k1 : ¬ (((th.take (start + s.nParams)).drop start).length ≠
          s.nBands + Sources.assertedShape s.cls) := by
        rw [hvl, asserted_eq, hva, hnp]; simp
      have k2 : ¬ ((((th.take (start + s.nParams)).drop start).take s.nBands).length ≠
          s.flux.length) := by
        rw [List.length_take, hvl, hwf, hnp]
        simp [Source.nBands]
      simp only [Source.setParams, if_neg k1, if_neg k2]
      rfl
    have e : (th.take (start + s.nParams)).drop start = (th.drop start).take s.nParams := by
      rw [List.drop_take]
      congr 1
      omega
    have hfx : s.fixed = false := hr.free s (by simp)
    simp only [setAllFrom, hfx, Bool.false_eq_true, if_false, hset]
    rw [ih (start + s.nParams) ⟨fun x hx => hr.free x (by simp [hx]), fun x hx => hr.wf x (by simp [hx]),
      fun x hx => hr.nobase x (by simp [hx])⟩ hl']
    simp only [setL, e, List.drop_drop]

/-- Moving one entry of the vector of a source. -/
def putSlot (s : Source K) (m : Nat) (x : K) : Source K :=
  if m < s.nBands then { s with flux := s.flux.set m x }
  else match (vecAttrs s.cls)[m - s.nBands]? with
    | some a => { s with attr := Function.update s.attr a x }
    | none => s

/-- One entry of the vector of a source. -/
def slotVal (s : Source K) (m : Nat) : Option K :=
  if m < s.nBands then s.flux[m]?
  else ((vecAttrs s.cls)[m - s.nBands]?).map s.attr

lemma setAttrs_set (l : List Attr) (hnd : l.Nodup) : ∀ (a : Attr → K) (v : List K) (i : Nat) (n : Attr)
    (x : K), v.length = l.length → l[i]? = some n →
    Sources.setAttrs a (l.zip (v.set i x)) = Function.update (Sources.setAttrs a (l.zip v)) n x := by
  induction l with
  | nil => intro a v i n x _ h; simp at h
  | cons b l ih =>
    intro a v i n x hv h
    obtain ⟨hb, hnd'⟩ := List.nodup_cons.mp hnd
    cases v with
    | nil => simp at hv
    | cons y v =>
      have hv' : v.length = l.length := by simpa using hv
      cases i with
      | zero =>
        simp only [List.getElem?_cons_zero, Option.some.injEq] at h
        subst h
        simp only [List.set_cons_zero, List.zip_cons_cons, Sources.setAttrs]
        funext c
        by_cases hc : c = b
        · subst hc
          rw [Sources.setAttrs_not_mem _ _ _ (by
            intro hm
            obtain ⟨p, hp, rfl⟩ := List.mem_map.mp hm
            exact hb (List.of_mem_zip (show (p.1, p.2) ∈ _ from hp)).1)]
          simp
        · rw [Function.update_of_ne hc]
          have : ∀ (l : List (Attr × K)) (f g : Attr → K), f c = g c →
              Sources.setAttrs f l c = Sources.setAttrs g l c := by
            intro l
            induction l with
            | nil => intro f g h; exact h
            | cons p l ih2 =>
              intro f g h
              obtain ⟨n, v⟩ := p
              simp only [Sources.setAttrs]
              apply ih2
              by_cases hcn : c = n
              · subst hcn; simp
              · rw [Function.update_of_ne hcn, Function.update_of_ne hcn, h]
          apply this
          rw [Function.update_of_ne hc, Function.update_of_ne hc]
      | succ i =>
        simp only [List.getElem?_cons_succ] at h
        simp only [List.set_cons_succ, List.zip_cons_cons, Sources.setAttrs]
        exact ih hnd' _ v i n x hv' h

lemma applyV_set (s : Source K) (hb : s.cls ≠ .base) (v : List K) (hv : v.length = s.nParams) (m : Nat)
    (hm : m < s.nParams) (x : K) : applyV s (v.set m x) = putSlot (applyV s v) m x := by
  have hnp := nparams_usual s
  have hva := vecAttrs_length s hb
  have hnb : (applyV s v).nBands = s.nBands := rfl
  have hcl : (applyV s v).cls = s.cls := rfl
  unfold putSlot
  rw [hnb, hcl]
  by_cases h : m < s.nBands
  · rw [if_pos h]
    unfold applyV
    congr 1
    · rw [List.take_set]
    · rw [List.drop_set_of_lt h]
  · rw [if_neg h]
    have hi : m - s.nBands < (vecAttrs s.cls).length := by omega
    rw [List.getElem?_eq_getElem hi]
    simp only
    unfold applyV
    congr 1
    · rw [List.take_set_of_le (by omega)]
    · rw [List.drop_set, if_neg h]
      exact setAttrs_set _ (Sources.vecAttrs_nodup _) _ _ _ _ _
        (by rw [List.length_drop]; omega) (List.getElem?_eq_getElem hi)

lemma applyV_val (s : Source K) (hb : s.cls ≠ .base) (v : List K) (hv : v.length = s.nParams) (m : Nat)
    (hm : m < s.nParams) : slotVal (applyV s v) m = v[m]? := by
  have hnp := nparams_usual s
  have hva := vecAttrs_length s hb
  have hnb : (applyV s v).nBands = s.nBands := rfl
  have hcl : (applyV s v).cls = s.cls := rfl
  unfold slotVal
  rw [hnb, hcl]
  by_cases h : m < s.nBands
  · rw [if_pos h]
    simp only [applyV]
    rw [List.getElem?_take_of_lt h]
  · rw [if_neg h]
    simp only [applyV]
    rw [← List.getElem?_map, Sources.setAttrs_map _ _ _ (Sources.vecAttrs_nodup _)
      (by rw [List.length_drop]; omega), List.getElem?_drop]
    congr 1
    omega

lemma setL_length (sc : List (Source K)) : ∀ th : List K, (setL th sc).length = sc.length := by
  induction sc with
  | nil => intro th; rfl
  | cons s t ih => intro th; simp [setL, ih]

/-- Moving one entry of the scene vector moves one entry of one source. -/
lemma setL_set (sc : List (Source K)) : ∀ (th : List K) (k : Nat), Ready sc → th.length = off sc →
    k < off sc → ∃ (j m : Nat) (s s' : Source K), sc[j]? = some s ∧ (setL th sc)[j]? = some s' ∧
      s'.cls = s.cls ∧ s'.filternames = s.filternames ∧ s'.WF ∧ m < s.nParams ∧
      k = off (sc.take j) + m ∧ slotVal s' m = th[k]? ∧
      ∀ x, setL (th.set k x) sc = (setL th sc).set j (putSlot s' m x) := by
  induction sc with
  | nil => intro th k _ _ h; simp [off] at h
  | cons s t ih =>
    intro th k hr hl hk
    have ho : off (s :: t) = s.nParams + off t := by simp [off]
    by_cases h : k < s.nParams
    · have hvl : (th.take s.nParams).length = s.nParams := by rw [List.length_take]; omega
      refine ⟨0, k, s, applyV s (th.take s.nParams), rfl, rfl, rfl, rfl, ?_, h, by simp [off], ?_, ?_⟩
      · have := nparams_usual s
        show ((th.take s.nParams).take s.nBands).length = s.filternames.length
        rw [List.length_take, hvl]
        unfold Source.nBands at *
        omega
      · rw [applyV_val s (hr.nobase s (by simp)) _ hvl k h, List.getElem?_take_of_lt h]
      · intro x
        simp only [setL, List.set_cons_zero]
        rw [List.take_set, applyV_set s (hr.nobase s (by simp)) _ hvl k h,
          List.drop_set_of_lt h]
    · obtain ⟨j, m, s1, s', e1, e2, e3, e4, e5, e6, e7, e8, e9⟩ := ih (th.drop s.nParams) (k - s.nParams)
        ⟨fun x hx => hr.free x (by simp [hx]), fun x hx => hr.wf x (by simp [hx]),
          fun x hx => hr.nobase x (by simp [hx])⟩ (by rw [List.length_drop]; omega) (by omega)
      refine ⟨j + 1, m, s1, s', by simpa using e1, by simpa [setL] using e2, e3, e4, e5, e6, ?_, ?_, ?_⟩
      · simp only [List.take_succ_cons, off, List.map_cons, List.sum_cons] at e7 ⊢
        omega
      · rw [e8, List.getElem?_drop]
        congr 1
        omega
      · intro x
        simp only [setL, List.set_cons_succ]
        rw [List.take_set_of_le (by omega), ← e9 x]
        congr 1
        rw [List.drop_set, if_neg h]

lemma contribs_at (pl : Plan K) (rows : List (Option (Param → K))) : ∀ (sc : List (Source K)) (i j m : Nat)
    (s : Source K), sc[j]? = some s → m < s.nParams →
    (contribs pl rows i sc)[off (sc.take j) + m]? = if pl.coverage s ≤ 1 then some (some 0)
      else (block pl.filtername (rows[i + (actives pl (sc.take j)).length]?.getD none) s)[m]? := by
  intro sc
  induction sc with
  | nil => intro i j m s h; simp at h
  | cons a t ih =>
    intro i j m s hs hm
    cases j with
    | zero =>
      simp only [List.getElem?_cons_zero, Option.some.injEq] at hs
      subst hs
      simp only [List.take_zero, off, List.map_nil, List.sum_nil, Nat.zero_add, contribs, actives,
        List.filter_nil, List.length_nil, Nat.add_zero]
      split
      · rw [List.getElem?_append_left (by simpa using hm), List.getElem?_replicate, if_pos hm]
      · rw [List.getElem?_append_left (by rw [block_length]; exact hm)]
    | succ j =>
      simp only [List.getElem?_cons_succ] at hs
      have ho : off ((a :: t).take (j + 1)) = a.nParams + off (t.take j) := by simp [off]
      rw [ho]
      simp only [contribs]
      split
      case isTrue hc =>
        rw [List.getElem?_append_right (by rw [List.length_replicate]; omega), List.length_replicate,
          show a.nParams + off (t.take j) + m - a.nParams = off (t.take j) + m by omega, ih i j m s hs hm]
        simp [actives, show ¬ 1 < pl.coverage a by omega]
      case isFalse hc =>
        rw [List.getElem?_append_right (by rw [block_length]; omega), block_length,
          show a.nParams + off (t.take j) + m - a.nParams = off (t.take j) + m by omega,
          ih (i + 1) j m s hs hm]
        simp [actives, show 1 < pl.coverage a by omega, Nat.add_assoc, Nat.add_comm 1]

/-- The kernel's name of an attribute. -/
def paramOf : Attr → Option Param
  | .ra => some .ra
  | .dec => some .dec
  | .q => some .q
  | .pa => some .pa
  | .sersic => some .sersic
  | .rhalf => some .rh
  | .ep | .ec => none

lemma order_usual (c : Cls) (hc : Usual c) :
    (vecAttrs c).map paramOf = ((gradParams.drop 1).take (npos + nshape c)).map some := by
  cases c with
  | galaxy b => cases b <;> rfl
  | conformal b => exact hc.elim
  | base => exact hc.elim
  | _ => rfl

lemma block_at (flt : String) (row : Option (Param → K)) (s : Source K) (hu : Usual s.cls) (m : Nat) :
    (∀ f, s.filternames[m]? = some f → (block flt row s)[m]? =
      some (if f = flt then row.map (fun r => r .flux) else some 0)) ∧
    (∀ a, s.nBands ≤ m → (vecAttrs s.cls)[m - s.nBands]? = some a → ∃ p, paramOf a = some p ∧
      (block flt row s)[m]? = some (row.map fun r => r p)) := by
  constructor
  · intro f hf
    unfold block
    rw [List.getElem?_append_left (by
      rw [List.length_map]; exact (List.getElem?_eq_some_iff.mp hf).1), List.getElem?_map, hf]
    rfl
  · intro a hm ha
    have h := congrArg (fun l => l[m - s.nBands]?) (order_usual s.cls hu)
    simp only [List.getElem?_map, ha, Option.map_some] at h
    obtain ⟨p, hp, hpe⟩ := Option.map_eq_some_iff.mp h.symm
    refine ⟨p, hpe.symm, ?_⟩
    unfold block
    rw [List.getElem?_append_right (by rw [List.length_map]; exact hm), List.length_map,
      List.getElem?_map]
    have : m - s.filternames.length = m - s.nBands := rfl
    rw [this, hp]
    rfl

end algebra

/-! ## The derivative -/

section analysis

/-- A source with one of its on-sky parameters moved. -/
def move (s : Source ℝ) (flt : String) : Param → ℝ → Source ℝ
  | .flux, t => { s with flux := s.flux.set (s.filternames.idxOf flt) t }
  | .ra, t => { s with attr := Function.update s.attr .ra t }
  | .dec, t => { s with attr := Function.update s.attr .dec t }
  | .q, t => { s with attr := Function.update s.attr .q t }
  | .pa, t => { s with attr := Function.update s.attr .pa t }
  | .sersic, t => { s with attr := Function.update s.attr .sersic t }
  | .rh, t => { s with attr := Function.update s.attr .rhalf t }

/-- The value of an on-sky parameter. -/
def IsValue (s : Source ℝ) (flt : String) : Param → ℝ → Prop
  | .flux, t => s.flux[s.filternames.idxOf flt]? = some t
  | .ra, t => s.attr .ra = t
  | .dec, t => s.attr .dec = t
  | .q, t => s.attr .q = t
  | .pa, t => s.attr .pa = t
  | .sersic, t => s.attr .sersic = t
  | .rh, t => s.attr .rhalf = t

/-- What is asked of one plan at given sources: a row of derivatives for every active source, each of
them the derivative of the plan's log-likelihood (if it is a number), no dependence on the fluxes in other
bands, and a coverage that does not depend on the parameters. -/
structure PlanOk (pl : Plan ℝ) (act fix : List (Source ℝ)) : Prop where
  rows : ∀ a f, (pl.lnlike a f).2.length = a.length
  deriv : ∀ (i : Nat) (s : Source ℝ) (g : Param → ℝ), act[i]? = some s →
    (pl.lnlike act fix).2[i]? = some (some g) → ∀ (prm : Param) (t₀ : ℝ), IsValue s pl.filtername prm t₀ →
    HasDerivAt (fun t => (pl.lnlike (act.set i (move s pl.filtername prm t)) fix).1) (g prm) t₀
  other : ∀ (i : Nat) (s : Source ℝ) (m : Nat) (f : String) (t : ℝ), act[i]? = some s →
    s.filternames[m]? = some f → f ≠ pl.filtername →
    (pl.lnlike (act.set i { s with flux := s.flux.set m t }) fix).1 = (pl.lnlike act fix).1
  cover : ∀ (s : Source ℝ) (fl : List ℝ) (a : Attr → ℝ),
    pl.coverage { s with flux := fl, attr := a } = pl.coverage s

lemma cover_put (pl : Plan ℝ) (h : ∀ (s : Source ℝ) (fl : List ℝ) (a : Attr → ℝ),
    pl.coverage { s with flux := fl, attr := a } = pl.coverage s) (s : Source ℝ) (m : Nat) (x : ℝ) :
    pl.coverage (putSlot s m x) = pl.coverage s := by
  unfold putSlot
  split
  · exact h s _ s.attr
  · split
    · exact h s s.flux _
    · rfl

lemma filter_set {α : Type} (P : α → Bool) : ∀ (l : List α) (j : Nat) (a b : α), l[j]? = some a → P a = P b →
    (l.set j b).filter P = if P a then (l.filter P).set ((l.take j).filter P).length b else l.filter P := by
  intro l
  induction l with
  | nil => intro j a b h; simp at h
  | cons x l ih =>
    intro j a b h hp
    cases j with
    | zero =>
      simp only [List.getElem?_cons_zero, Option.some.injEq] at h
      subst h
      simp only [List.set_cons_zero, List.take_zero, List.filter_nil, List.length_nil]
      by_cases hx : P x = true
      · rw [if_pos hx, List.filter_cons_of_pos (by rw [← hp]; exact hx), List.filter_cons_of_pos hx]
        rfl
      · rw [if_neg hx, List.filter_cons_of_neg (by rw [← hp]; exact hx), List.filter_cons_of_neg hx]
    | succ j =>
      simp only [List.getElem?_cons_succ] at h
      have := ih j a b h hp
      by_cases hx : P x = true
      · rw [List.set_cons_succ, List.filter_cons_of_pos hx, this, List.take_succ_cons,
          List.filter_cons_of_pos hx, List.filter_cons_of_pos hx]
        split <;> simp
      · rw [List.set_cons_succ, List.filter_cons_of_neg hx, this, List.take_succ_cons,
          List.filter_cons_of_neg hx, List.filter_cons_of_neg hx]

lemma filter_at {α : Type} (P : α → Bool) : ∀ (l : List α) (j : Nat) (a : α), l[j]? = some a → P a = true →
    (l.filter P)[((l.take j).filter P).length]? = some a := by
  intro l
  induction l with
  | nil => intro j a h; simp at h
  | cons x l ih =>
    intro j a h hp
    cases j with
    | zero =>
      simp only [List.getElem?_cons_zero, Option.some.injEq] at h
      subst h
      simp [hp]
    | succ j =>
      simp only [List.getElem?_cons_succ] at h
      have := ih j a h hp
      by_cases hx : P x = true
      · simpa [hx] using this
      · simpa [hx] using this

/-- One plan, one entry. -/
lemma plan_deriv (pl : Plan ℝ) (sc : List (Source ℝ)) (hok : PlanOk pl (actives pl sc) (fixeds pl sc))
    (j m : Nat) (s : Source ℝ) (hj : sc[j]? = some s) (hu : Usual s.cls) (hw : s.WF)
    (hn : s.filternames.Nodup)
    (hm : m < s.nParams) (hc1 : pl.coverage s ≠ 1) (x d : ℝ) (hx : slotVal s m = some x)
    (hd : (contribs pl (pl.lnlike (actives pl sc) (fixeds pl sc)).2 0 sc)[off (sc.take j) + m]? =
      some (some d)) :
    HasDerivAt (fun t => (pl.lnlike (actives pl (sc.set j (putSlot s m t)))
      (fixeds pl (sc.set j (putSlot s m t)))).1) d x := by
  have hcov : ∀ t, pl.coverage (putSlot s m t) = pl.coverage s := fun t => cover_put pl hok.cover s m t
  have hfix : ∀ t, fixeds pl (sc.set j (putSlot s m t)) = fixeds pl sc := by
    intro t
    unfold fixeds
    rw [filter_set _ sc j s (putSlot s m t) hj (by simp only [hcov]), if_neg (by simp [hc1])]
  simp only [hfix]
  rw [contribs_at pl _ sc 0 j m s hj hm] at hd
  by_cases hc : pl.coverage s ≤ 1
  · rw [if_pos hc] at hd
    have hact : ∀ t, actives pl (sc.set j (putSlot s m t)) = actives pl sc := by
      intro t
      unfold actives
      rw [filter_set _ sc j s (putSlot s m t) hj (by simp only [hcov]),
        if_neg (by simp only [decide_eq_true_eq]; omega)]
    simp only [hact]
    simp only [Option.some.injEq] at hd
    subst hd
    exact hasDerivAt_const x _
  · rw [if_neg hc, Nat.zero_add] at hd
    have hpos : decide (1 < pl.coverage s) = true := by simp only [decide_eq_true_eq]; omega
    have hact : ∀ t, actives pl (sc.set j (putSlot s m t)) =
        (actives pl sc).set (actives pl (sc.take j)).length (putSlot s m t) := by
      intro t
      unfold actives
      rw [filter_set _ sc j s (putSlot s m t) hj (by simp only [hcov]), if_pos hpos]
    simp only [hact]
    have hai : (actives pl sc)[(actives pl (sc.take j)).length]? = some s := filter_at _ sc j s hj hpos
    generalize hR : (actives pl (sc.take j)).length = R at hd hai ⊢
    have hRl : R < (pl.lnlike (actives pl sc) (fixeds pl sc)).2.length := by
      rw [hok.rows]
      exact (List.getElem?_eq_some_iff.mp hai).1
    rw [List.getElem?_eq_getElem hRl, Option.getD_some] at hd
    have hrow := List.getElem?_eq_getElem hRl
    generalize (pl.lnlike (actives pl sc) (fixeds pl sc)).2[R] = row at hd hrow
    obtain ⟨hb1, hb2⟩ := block_at pl.filtername row s hu m
    by_cases hmb : m < s.nBands
    · have hfm : s.filternames[m]? = some s.filternames[m] := List.getElem?_eq_getElem hmb
      rw [hb1 _ hfm] at hd
      simp only [Option.some.injEq] at hd
      have hput : ∀ t, putSlot s m t = { s with flux := s.flux.set m t } := by
        intro t; simp only [putSlot, if_pos hmb]
      by_cases hf : s.filternames[m] = pl.filtername
      · rw [if_pos hf] at hd
        obtain ⟨g, hg, hgd⟩ := Option.map_eq_some_iff.mp hd
        subst hg
        have hidx : s.filternames.idxOf pl.filtername = m := by
          rw [← hf]
          exact hn.idxOf_getElem m hmb
        have := hok.deriv R s g hai hrow .flux x (by
          simp only [IsValue, hidx]
          simpa [slotVal, hmb] using hx)
        simp only [move, hidx] at this
        rw [hgd] at this
        simpa only [hput] using this
      · rw [if_neg hf] at hd
        simp only [Option.some.injEq] at hd
        subst hd
        have := fun t => hok.other R s m _ t hai hfm hf
        simp only [hput, this]
        exact hasDerivAt_const x _
    · have hva := vecAttrs_length s (by
        intro h; rw [h] at hu; exact hu)
      have hnp := nparams_usual s
      have hi : m - s.nBands < (vecAttrs s.cls).length := by omega
      have ha := List.getElem?_eq_getElem hi
      generalize (vecAttrs s.cls)[m - s.nBands] = a at ha
      obtain ⟨p, hp, hbk⟩ := hb2 a (by omega) ha
      rw [hbk] at hd
      simp only [Option.some.injEq] at hd
      obtain ⟨g, hg, hgd⟩ := Option.map_eq_some_iff.mp hd
      subst hg
      have hput : ∀ t, putSlot s m t = { s with attr := Function.update s.attr a t } := by
        intro t; simp only [putSlot, if_neg hmb, ha]
      have hval : s.attr a = x := by
        simpa [slotVal, hmb, ha] using hx
      have := hok.deriv R s g hai hrow p x (by
        cases a <;> simp only [paramOf, Option.some.injEq, reduceCtorEq] at hp <;> subst hp <;> exact hval)
      rw [hgd] at this
      have hmv : ∀ t, move s pl.filtername p t = putSlot s m t := by
        intro t
        rw [hput]
        cases a <;> simp only [paramOf, Option.some.injEq, reduceCtorEq] at hp <;> subst hp <;> rfl
      simpa only [hmv] using this

lemma sum_deriv (sc : List (Source ℝ)) (j m : Nat) (s : Source ℝ) (hj : sc[j]? = some s)
    (hu : Usual s.cls) (hw : s.WF) (hn : s.filternames.Nodup) (hm : m < s.nParams) (x : ℝ)
    (hx : slotVal s m = some x) : ∀ (plans : List (Plan ℝ)),
    (∀ pl ∈ plans, PlanOk pl (actives pl sc) (fixeds pl sc)) →
    (∀ pl ∈ plans, pl.coverage s ≠ 1) → ∀ (l : ℝ → ℝ) (g : List (Option ℝ)) (d : ℝ),
    (∀ d0, g[off (sc.take j) + m]? = some (some d0) → HasDerivAt l d0 x) →
    (sumGrad sc plans g)[off (sc.take j) + m]? = some (some d) →
    HasDerivAt (fun t => sumLnp (sc.set j (putSlot s m t)) plans (l t)) d x := by
  intro plans
  induction plans with
  | nil => intro _ _ l g d h hg; exact h d hg
  | cons pl t ih =>
    intro hok hc l g d h hg
    have := ih (fun q hq => hok q (by simp [hq])) (fun q hq => hc q (by simp [hq]))
      (fun t => l t + (pl.lnlike (actives pl (sc.set j (putSlot s m t)))
        (fixeds pl (sc.set j (putSlot s m t)))).1) _ d (by
        intro d0 h0
        rw [List.getElem?_zipWith] at h0
        rcases hga : g[off (sc.take j) + m]? with _ | u
        · rw [hga] at h0; simp at h0
        rw [hga] at h0
        rcases hcb : (contribs pl (pl.lnlike (actives pl sc) (fixeds pl sc)).2 0 sc)[off (sc.take j) + m]?
          with _ | w
        · rw [hcb] at h0; simp at h0
        rw [hcb] at h0
        simp only [Option.some.injEq] at h0
        rcases u with _ | a
        · simp [nadd] at h0
        rcases w with _ | b
        · simp [nadd] at h0
        simp only [nadd, Option.some.injEq] at h0
        subst h0
        exact (h a hga).add (plan_deriv pl sc (hok pl (by simp)) j m s hj hu hw hn hm
          (hc pl (by simp)) x b hx hcb)) hg
    exact this

/-- A scene for which the gradient can be right: no fixed sources, only stars, simple galaxies and
galaxies, each with different filter names among which is that of every stamp. -/
structure GoodScene (sc : Scene ℝ) (plans : List (Plan ℝ)) : Prop where
  free : ∀ s ∈ sc, s.fixed = false
  wf : ∀ s ∈ sc, s.WF
  usual : ∀ s ∈ sc, Usual s.cls
  names : ∀ s ∈ sc, s.filternames.Nodup
  has : ∀ pl ∈ plans, ∀ s ∈ sc, pl.filtername ∈ s.filternames

lemma GoodScene.ready {sc : Scene ℝ} {plans : List (Plan ℝ)} (h : GoodScene sc plans) : Ready sc :=
  ⟨h.free, h.wf, fun s hs hb => by have := h.usual s hs; rw [hb] at this; exact this⟩

lemma setL_mem (sc : List (Source ℝ)) : ∀ (th : List ℝ) (s' : Source ℝ), s' ∈ setL th sc →
    ∃ s ∈ sc, s'.fixed = s.fixed ∧ s'.filternames = s.filternames ∧ s'.cls = s.cls := by
  induction sc with
  | nil => intro th s' h; simp [setL] at h
  | cons a t ih =>
    intro th s' h
    simp only [setL, List.mem_cons] at h
    rcases h with rfl | h
    · exact ⟨a, by simp, rfl, rfl, rfl⟩
    · obtain ⟨s, hs, h'⟩ := ih _ _ h
      exact ⟨s, by simp [hs], h'⟩

lemma off_setL (sc : List (Source ℝ)) : ∀ (th : List ℝ), off (setL th sc) = off sc := by
  induction sc with
  | nil => intro th; rfl
  | cons a t ih =>
    intro th
    have := ih (th.drop a.nParams)
    simp only [off, setL, List.map_cons, List.sum_cons] at this ⊢
    rw [this]
    rfl

lemma take_setL (sc : List (Source ℝ)) : ∀ (th : List ℝ) (j : Nat), off ((setL th sc).take j) = off (sc.take j) := by
  induction sc with
  | nil => intro th j; simp [setL]
  | cons a t ih =>
    intro th j
    cases j with
    | zero => rfl
    | succ j =>
      have := ih (th.drop a.nParams) j
      simp only [off, setL, List.take_succ_cons, List.map_cons, List.sum_cons] at this ⊢
      rw [this]
      rfl

lemma sumGrad_length (sc : List (Source ℝ)) : ∀ (plans : List (Plan ℝ)) (g : List (Option ℝ)),
    g.length = off sc → (sumGrad sc plans g).length = off sc := by
  intro plans
  induction plans with
  | nil => intro g h; exact h
  | cons pl t ih =>
    intro g h
    apply ih
    rw [List.length_zipWith, contribs_length, h]
    exact Nat.min_self _

lemma multi_eq (sc : Scene ℝ) (plans : List (Plan ℝ)) (hg : GoodScene sc plans)
    (hrows : ∀ pl ∈ plans, ∀ a f, (pl.lnlike a f).2.length = a.length) (th : List ℝ)
    (hl : th.length = off sc) :
    setAll sc th = (setL th sc, none) ∧
    lnlikeMulti th sc plans = .ok (sumLnp (setL th sc) plans 0,
      sumGrad (setL th sc) plans (th.map fun _ => some 0)) := by
  have hset : setAll sc th = (setL th sc, none) := by
    have := setAllFrom_eq th sc 0 hg.ready (by omega)
    simpa [setAll] using this
  refine ⟨hset, ?_⟩
  have hf : ∀ pl ∈ plans, Fits pl (setL th sc) := by
    intro pl hpl
    refine ⟨?_, ?_, ?_⟩
    all_goals
      intro s' hs'
      obtain ⟨s, hs, h1, h2, h3⟩ := setL_mem sc th s' hs'
    · rw [h1]; exact hg.free s hs
    · rw [h2]; exact hg.names s hs
    · rw [h2]; exact hg.has pl hpl s hs
  simp only [lnlikeMulti, hset]
  rw [plansLoop_ok (setL th sc) plans hf hrows]
  rw [List.length_map, off_setL, hl]

/-- For every vector of the right length `lnlike_multi` returns the sum over the stamps of their
log-likelihoods for the scene with that vector, and a gradient of the length of the vector; if an
entry of the gradient is a number it is the derivative of that sum with respect to that entry of the
vector. `PlanOk` asks of every stamp that its own gradient is right; sources that a stamp regards as fixed
(coverage 1) are excluded. -/
theorem C80_gradient_partial (sc : Scene ℝ) (plans : List (Plan ℝ)) (hg : GoodScene sc plans)
    (hrows : ∀ pl ∈ plans, ∀ a f, (pl.lnlike a f).2.length = a.length) :
    ∃ L : List ℝ → ℝ, ∀ th : List ℝ, th.length = (sc.map (·.nParams)).sum → ∃ sc' G,
      setAll sc th = (sc', none) ∧
      lnlikeMulti th sc plans = .ok (L th, G) ∧ G.length = th.length ∧
      L th = (plans.map fun pl => (pl.lnlike (sc'.filter fun s => decide (1 < pl.coverage s))
        (sc'.filter fun s => decide (pl.coverage s = 1))).1).sum ∧
      ((∀ pl ∈ plans, PlanOk pl (sc'.filter fun s => decide (1 < pl.coverage s))
        (sc'.filter fun s => decide (pl.coverage s = 1))) →
       (∀ pl ∈ plans, ∀ s ∈ sc', pl.coverage s ≠ 1) →
       ∀ (k : Nat) (x d : ℝ), th[k]? = some x → G[k]? = some (some d) →
         HasDerivAt (fun t => L (th.set k t)) d x) := by
  refine ⟨fun th => sumLnp (setL th sc) plans 0, ?_⟩
  intro th hl
  obtain ⟨h1, h2⟩ := multi_eq sc plans hg hrows th hl
  refine ⟨_, _, h1, h2, ?_, ?_, ?_⟩
  · rw [sumGrad_length _ _ _ (by rw [List.length_map, off_setL]; exact hl), off_setL]
    exact hl.symm
  · have : ∀ (ps : List (Plan ℝ)) (l : ℝ), sumLnp (setL th sc) ps l = l +
        (ps.map fun pl => (pl.lnlike ((setL th sc).filter fun s => decide (1 < pl.coverage s))
          ((setL th sc).filter fun s => decide (pl.coverage s = 1))).1).sum := by
      intro ps
      induction ps with
      | nil => intro l; simp [sumLnp]
      | cons p t ih =>
        intro l
        have := ih (l + (p.lnlike (actives p (setL th sc)) (fixeds p (setL th sc))).1)
        simp only [sumLnp, List.foldl_cons, List.map_cons, List.sum_cons] at this ⊢
        rw [this, ← add_assoc]
        rfl
    dsimp only
    rw [this, zero_add]
  · intro hok hcov k x d hx hd
    have hk : k < off sc := by
      have := (List.getElem?_eq_some_iff.mp hx).1
      have h : off sc = (sc.map (·.nParams)).sum := rfl
      omega
    obtain ⟨j, m, s, s', e1, e2, e3, e4, e5, e6, e7, e8, e9⟩ := setL_set sc th k hg.ready hl hk
    have hm' := List.mem_of_getElem? e1
    simp only [e9]
    rw [e7, ← take_setL sc th j] at hd
    refine sum_deriv (setL th sc) j m s' e2 (by rw [e3]; exact hg.usual s hm') e5
      (by rw [e4]; exact hg.names s hm') (by unfold Source.nParams Source.nBands at *; rw [e3, e4]; exact e6) x
      (by rw [e8]; exact hx) plans hok
      (fun pl hpl => hcov pl hpl s' (List.mem_of_getElem? e2)) (fun _ => 0) _ d ?_ hd
    intro d0 h0
    rw [List.getElem?_map] at h0
    cases hth : th[off ((setL th sc).take j) + m]? with
    | none => rw [hth] at h0; simp at h0
    | some y =>
      rw [hth] at h0
      simp only [Option.map_some, Option.some.injEq] at h0
      subst h0
      exact hasDerivAt_const x _

lemma contribs_numbers (pl : Plan ℝ) (rows : List (Option (Param → ℝ))) (hr : ∀ r ∈ rows, r ≠ none) :
    ∀ (t : List (Source ℝ)) (i : Nat), i + (actives pl t).length ≤ rows.length →
      ∀ c ∈ contribs pl rows i t, c ≠ none := by
  intro t
  induction t with
  | nil => intro i _ c hc; simp [contribs] at hc
  | cons s t ih =>
    intro i hi c hc
    simp only [contribs] at hc
    split at hc
    case isTrue h =>
      rw [List.mem_append] at hc
      rcases hc with hc | hc
      · rw [List.eq_of_mem_replicate hc]; simp
      · refine ih i ?_ c hc
        simpa [actives, show ¬ 1 < pl.coverage s by omega] using hi
    case isFalse h =>
      have hi' : i + ((actives pl t).length + 1) ≤ rows.length := by
        simpa [actives, show 1 < pl.coverage s by omega] using hi
      have hil : i < rows.length := by omega
      rw [List.getElem?_eq_getElem hil, Option.getD_some] at hc
      obtain ⟨r, hrr⟩ := Option.ne_none_iff_exists'.mp (hr _ (List.getElem_mem hil))
      rw [List.mem_append] at hc
      rcases hc with hc | hc
      · rw [hrr] at hc
        simp only [block, List.mem_append, List.mem_map] at hc
        rcases hc with ⟨f, _, rfl⟩ | ⟨p, _, rfl⟩
        · split <;> simp
        · simp
      · exact ih (i + 1) (by omega) c hc

/-- If the stamps return numbers, so does `lnlike_multi`. -/
theorem C80_numbers (sc : Scene ℝ) (plans : List (Plan ℝ)) (hg : GoodScene sc plans)
    (hrows : ∀ pl ∈ plans, ∀ a f, (pl.lnlike a f).2.length = a.length)
    (hnum : ∀ pl ∈ plans, ∀ a f, ∀ r ∈ (pl.lnlike a f).2, r ≠ none) (th : List ℝ)
    (hl : th.length = (sc.map (·.nParams)).sum) :
    ∃ l G, lnlikeMulti th sc plans = .ok (l, G) ∧ ∀ c ∈ G, c ≠ none := by
  obtain ⟨h1, h2⟩ := multi_eq sc plans hg hrows th hl
  refine ⟨_, _, h2, ?_⟩
  have : ∀ (ps : List (Plan ℝ)) (g : List (Option ℝ)), (∀ p ∈ ps, p ∈ plans) → (∀ c ∈ g, c ≠ none) →
      ∀ c ∈ sumGrad (setL th sc) ps g, c ≠ none := by
    intro ps
    induction ps with
    | nil => intro g _ h; exact h
    | cons p t ih =>
      intro g hp h
      apply ih _ (fun q hq => hp q (by simp [hq]))
      intro c hc
      obtain ⟨i, hi⟩ := List.getElem?_of_mem hc
      rw [List.getElem?_zipWith] at hi
      rcases ha : g[i]? with _ | a
      · rw [ha] at hi; simp at hi
      rcases hb : (contribs p (p.lnlike (actives p (setL th sc)) (fixeds p (setL th sc))).2 0
          (setL th sc))[i]? with _ | b
      · rw [ha, hb] at hi; simp at hi
      rw [ha, hb] at hi
      simp only [Option.some.injEq] at hi
      have h3 := h a (List.mem_of_getElem? ha)
      have h4 := contribs_numbers p _ (hnum p (hp p (by simp)) _ _) (setL th sc) 0
        (by rw [hrows p (hp p (by simp))]; omega) b (List.mem_of_getElem? hb)
      obtain ⟨x, rfl⟩ := Option.ne_none_iff_exists'.mp h3
      obtain ⟨y, rfl⟩ := Option.ne_none_iff_exists'.mp h4
      rw [← hi]
      simp [nadd]
  apply this plans _ (fun p hp => hp)
  intro c hc
  obtain ⟨y, _, rfl⟩ := List.mem_map.mp hc
  simp

/-- The negative version has the opposite sign throughout. -/
theorem C80_negative (th : List ℝ) (sc : Scene ℝ) (plans : List (Plan ℝ)) (l : ℝ) (G : List (Option ℝ)) :
    negativeLnlikeMulti th sc plans = .ok (l, G) ↔
      ∃ G0, lnlikeMulti th sc plans = .ok (-l, G0) ∧ G = G0.map (Option.map Neg.neg) := by
  unfold negativeLnlikeMulti
  cases lnlikeMulti th sc plans with
  | error e => simp
  | ok r =>
    obtain ⟨a, b⟩ := r
    simp only [Except.ok.injEq, Prod.mk.injEq]
    constructor
    · rintro ⟨rfl, rfl⟩
      exact ⟨b, ⟨by simp, rfl⟩, rfl⟩
    · rintro ⟨G0, ⟨h1, rfl⟩, rfl⟩
      exact ⟨by rw [h1]; simp, rfl⟩

/-! ## Where it fails -/

/-- A source with one band. -/
def src (c : Cls) (fixed : Bool) : Source ℝ := ⟨c, ["F"], [1], fun _ => 0, 0, fixed⟩

/-- A plan that sees the axis ratio of a `ConformalShearGalaxy`, with the right derivatives in axis ratio
and position angle. -/
noncomputable def shearPlan : Plan ℝ where
  filtername := "F"
  coverage := fun _ => 2
  lnlike := fun a _ => ((a.map fun s => Shear.qOf (s.attr .ep) (s.attr .ec)).sum,
    a.map fun _ => some fun p => if p = .q then 1 else 0)

/-- For a `ConformalShearGalaxy` the entry of the first shear component receives the derivative with respect
to the axis ratio, which is not the derivative with respect to the entry. -/
theorem C80_shear_refuted : ∃ G : List (Option ℝ),
    lnlikeMulti [1, 0, 0, 2, 0, 1, 1] [src (.conformal true) false] [shearPlan] =
      .ok (Shear.qOf 2 0, G) ∧ G[3]? = some (some 1) ∧
    (∀ t, ∃ g, lnlikeMulti ([1, 0, 0, 2, 0, 1, 1].set 3 t) [src (.conformal true) false] [shearPlan] =
      .ok (Shear.qOf t 0, g)) ∧ ¬ HasDerivAt (fun t => Shear.qOf t 0) 1 2 := by
  have key : ∀ t : ℝ, lnlikeMulti [1, 0, 0, t, 0, 1, 1] [src (.conformal true) false] [shearPlan] =
      .ok (Shear.qOf t 0, [some 0, some 0, some 0, some 1, some 0, some 0, some 0]) := by
    intro t
    simp [lnlikeMulti, setAll, setAllFrom, src, Source.setParams, Source.nParams, Source.nBands, npos,
      nshape, Sources.assertedShape, plansLoop, planSources, planLoop, shearPlan, Source.filterIndex,
      paramIndices, activeSources, gradInds, gather, flatAt, gradParams, addAt, nadd, Sources.setAttrs,
      vecAttrs, List.range_succ, List.idxOf?, List.findIdx?_cons]
  refine ⟨_, key 2, rfl, fun t => ⟨_, key t⟩, ?_⟩
  intro h
  have h1 := (Shear.C54_jacobian 2 0 (Or.inl (by norm_num))).1
  have h2 := h.unique h1
  have hq : (Shear.dsDeta 2 0) 0 0 = - Shear.qOf 2 0 / 2 := by
    have : Shear.hypot 2 0 = 2 := by
      unfold Shear.hypot
      rw [show (2 : ℝ) ^ 2 + 0 ^ 2 = 2 ^ 2 by norm_num]
      exact Real.sqrt_sq (by norm_num)
    have hp : Shear.paOf 2 0 = 0 := by
      have : (⟨2, 0⟩ : ℂ) = ((2 : ℝ) : ℂ) := rfl
      unfold Shear.paOf Shear.arctan2
      rw [this, Complex.arg_ofReal_of_nonneg (by norm_num)]
      simp
    have hne : Shear.qOf 2 0 ≠ 0 := (Real.exp_pos _).ne'
    simp only [Shear.dsDeta, hp]
    simp [Matrix.mul_apply, Fin.sum_univ_two]
    field_simp
  rw [hq] at h2
  have : 0 < Shear.qOf 2 0 := Real.exp_pos _
  linarith

/-- A plan that regards every source as fixed and whose likelihood depends on its flux, as that of
`FastWorkPlan` does. -/
noncomputable def fixedPlan : Plan ℝ where
  filtername := "F"
  coverage := fun _ => 1
  lnlike := fun a f => ((f.map fun s => (s.flux.map fun x => x).sum).sum, a.map fun _ => some fun _ => 0)

/-- The parameters of sources that a stamp regards as fixed are still taken from the vector, but their
derivatives are left out. -/
theorem C80_fixed_refuted : ∀ t : ℝ, lnlikeMulti [t, 0, 0] [src .star false] [fixedPlan] =
    .ok (t, [some 0, some 0, some 0]) := by
  intro t
  simp [lnlikeMulti, setAll, setAllFrom, src, Source.setParams, Source.nParams, Source.nBands, npos,
      nshape, Sources.assertedShape, plansLoop, planSources, planLoop, fixedPlan, Source.filterIndex,
      gather, addAt, List.idxOf?, List.findIdx?_cons]

/-- With a source marked as fixed before it, the parameters of a source are looked for behind the end of
the vector. -/
theorem C80_fixed_source_refuted (t : ℝ) :
    lnlikeMulti [t, 0, 0] [src .star true, src .star false] [{ fixedPlan with coverage := fun s => if s.fixed then 0 else 2 }] =
    .error .indexError := by
  simp [lnlikeMulti, setAll, setAllFrom, src, Source.setParams, Source.nParams, Source.nBands, npos,
      nshape, Sources.assertedShape, plansLoop, planSources, planLoop, fixedPlan, Source.filterIndex,
      gather, addAt, List.idxOf?, List.findIdx?_cons, paramIndices, activeSources, gradInds, flatAt, gradParams,
      List.range_succ]

end analysis

end Forcepho.Multi
