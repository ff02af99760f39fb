import Verif.Chain.Props
import Verif.SuperScene.Props

/-!
# C108: the result of a fit goes back to the right sources

Model of `Result.fill` (forcepho/fitting.py:38-150) as far as the returned catalog and covariance blocks
are concerned, of handing them to `checkin_region`, and of `bounds_and_covs` (superscene.py:351-360).
Numbers are elements of a group; `none` is an exception.
-/

set_option autoImplicit false
set_option linter.unusedSectionVars false

namespace Forcepho.Fitting

open Forcepho.Chain (Arr2 ChainCat Table makeChaincat getSampleCat extractBlockDiag contiguous buffer)
open Forcepho.SuperScene (Params Row State CheckinArgs)

section Model
variable {K B : Type} [AddGroup K]

/-- `Galaxy.SHAPE_COLS` (sources.py:240). -/
def galaxyCols : List String := ["ra", "dec", "q", "pa", "rhalf", "sersic"]

/-- The column `c` of a catalog row; the bands of the catalog come first. -/
def colOf (allbands : List String) (p : Params K) (c : String) : K :=
  if c ∈ allbands then p.flux.getD (allbands.idxOf c) 0
  else if c = "ra" then p.ra
  else if c = "dec" then p.dec
  else if c = "q" then p.q
  else if c = "pa" then p.pa
  else if c = "rhalf" then p.rhalf
  else if c = "sersic" then p.sersic
  else 0

/-- The rows handed out by `checkout_region` as the structured array given to the fit (parameter columns
and source index; the bookkeeping columns pass through unchanged). -/
def asTable (allbands : List String) (act : List (Row K)) : Table K where
  nrow := act.length
  index := fun s => ((act[s]?).map fun r => (r.sourceIndex : Int)).getD 0
  names := allbands ++ galaxyCols
  at_ := fun s c => ((act[s]?).map fun r => colOf allbands r.par c).getD 0

/-- A structured array as catalog rows, read by `checkin_region` (superscene.py:303, 312-313); the
bookkeeping columns are those of the rows handed out. -/
def ofTable (allbands : List String) (act : List (Row K)) (t : Table K) : List (Row K) :=
  act.mapIdx fun s r => { r with
    sourceIndex := (t.index s).toNat
    par := ⟨allbands.map (t.at_ s), t.at_ s "ra", t.at_ s "dec", t.at_ s "q", t.at_ s "pa",
      t.at_ s "sersic", t.at_ s "rhalf"⟩ }

/-- The covariance blocks (fitting.py:119-131): `n_param` counts the bands of the patch. -/
def covBlocks (patchBands : List String) (cov : Option (Arr2 K)) : Option (Option (List (List (List K)))) :=
  match cov with
  | none => some none
  | some c =>
    (extractBlockDiag (contiguous c.nrow c.ncol) (patchBands.length + galaxyCols.length) 0).map
      fun blocks : List (List (List Nat)) =>
        some (blocks.map fun blk => blk.map fun row => row.map (buffer c.ncol c.at_))

/-- `Result.fill` (fitting.py:38-150): the catalog of the last sample and, if the sampler left a
covariance matrix, its diagonal blocks. -/
def fill (patchBands : List String) (ref : K × K) (chain : Arr2 K) (active : Table K) (cov : Option (Arr2 K)) :
    Option (Table K × Option (List (List (List K)))) :=
  (makeChaincat chain patchBands ((List.range active.nrow).map active.index) ref galaxyCols).bind fun cc =>
    (covBlocks patchBands cov).bind fun blocks =>
      (getSampleCat cc (-1) active).map fun final => (final, blocks)

/-- Covariance blocks as `checkin_region` can store them (superscene.py:330-335): the array of the scene
holds square matrices with one row per band of the catalog and shape parameter, and an array of matrices
of another size is refused by numpy; the exception is caught and nothing is stored. -/
def storable (nparam : Nat) (blocks : Option (List (List (List K)))) : Option (List (List (List K))) :=
  match blocks with
  | none => none
  | some bs => if bs.all (fun b => decide (b.length = nparam)) then some bs else none

/-- The fit of a region and the check-in of its result, as in the docs (docs/usage.md:60-97) and
dispatcher.py:203-230. -/
def finish (allbands patchBands : List String) (ref : K × K) (s : State K B (List (List K)))
    (act : List (Row K)) (fixed : Option (List (Row K))) (chain : Arr2 K) (cov : Option (Arr2 K)) (niter : Int)
    (taskID : Option String) : Option (State K B (List (List K)) × Option SuperScene.Err) :=
  (fill patchBands ref chain (asTable allbands act) cov).map fun out =>
    SuperScene.checkin s {
      active := ofTable allbands act out.1
      fixed := fixed
      niter := niter
      blockCovs := storable (allbands.length + galaxyCols.length) out.2
      newBounds := none
      taskID := taskID }

/-- `bounds_and_covs` (superscene.py:351-360), the matrix: its size and entries. -/
def covOf (nparam : Nat) (covs : List (List (List K))) (ids : List Nat) : Nat × (Nat → Nat → K) :=
  (ids.length * nparam, Chain.blockDiag nparam fun b r c =>
    (((covs.getD (ids.getD b 0) []).getD r []).getD c 0))

end Model

section
variable {K B : Type} [AddGroup K]

lemma names_of_chaincat (chain : Arr2 K) (bands shapes : List String) (indices : List Int)
    (ref : K × K) (cat : ChainCat K) (h : makeChaincat chain bands indices ref shapes = some cat) :
    cat.names = bands ++ shapes := by
  unfold makeChaincat at h
  simp only at h
  split at h
  · cases h
  split at h
  · cases h
  split at h
  · cases h
  split at h
  · cases h
  split at h
  · cases h
  obtain rfl := Option.some.inj h
  rfl

/-- What `fill` returns: the last sample in every column it covers. -/
lemma fill_spec (allbands patchBands : List String) (ref : K × K) (act : List (Row K)) (chain : Arr2 K)
    (cov : Option (Arr2 K))
    (hn : (("source_index" :: allbands) ++ galaxyCols).Nodup) (hsub : patchBands.Sublist allbands)
    (hrows : 0 < chain.nrow) (hcols : chain.ncol = act.length * (patchBands.length + 6)) :
    ∃ final blocks, fill patchBands ref chain (asTable allbands act) cov = some (final, blocks) ∧
      (∀ (m : Nat) (r : Row K), act[m]? = some r →
        final.index m = r.sourceIndex ∧
        (∀ (j : Nat) (c : String), (patchBands ++ galaxyCols)[j]? = some c →
          final.at_ m c = chain.at_ (chain.nrow - 1) (m * (patchBands.length + 6) + j) + Chain.refOf ref c) ∧
        (∀ c ∈ allbands, c ∉ patchBands → final.at_ m c = colOf allbands r.par c)) ∧
      (cov = none → blocks = none) ∧
      (∀ c : Arr2 K, cov = some c → c.nrow = chain.ncol → c.ncol = chain.ncol →
        blocks = some ((List.range act.length).map fun m => (List.range (patchBands.length + 6)).map fun i =>
          (List.range (patchBands.length + 6)).map fun j =>
            c.at_ (m * (patchBands.length + 6) + i) (m * (patchBands.length + 6) + j))) := by
  have hidx : ((List.range (asTable allbands act).nrow).map (asTable allbands act).index).length = act.length := by
    simp [asTable]
  have hnn : ("source_index" :: (patchBands ++ galaxyCols)).Nodup := by
    refine List.Nodup.sublist ?_ hn
    exact (hsub.append (List.Sublist.refl _)).cons_cons _
  have hg : galaxyCols.length = 6 := rfl
  obtain ⟨cc, hcc⟩ : ∃ cc, makeChaincat chain patchBands
      ((List.range (asTable allbands act).nrow).map (asTable allbands act).index) ref galaxyCols = some cc := by
    unfold makeChaincat
    simp only
    rw [if_neg (by rw [hg]; omega), hg, if_neg (by rw [hcols, Nat.mul_mod_left]; simp), hcols,
      Nat.mul_div_cancel _ (by omega), if_neg (by rw [hidx]; simp), if_neg (not_not.mpr hnn),
      if_neg (by simp [galaxyCols])]
    exact ⟨_, rfl⟩
  obtain ⟨g1, g2, g3, g4, g5⟩ := Chain.C59_cells _ _ _ _ _ _ hcc
  have hnames := names_of_chaincat _ _ _ _ _ _ hcc
  obtain ⟨final, hf, -, -, hfi, hfv, hfo⟩ := Chain.C59_sample cc (-1) (asTable allbands act)
    (by rw [g1, hidx]; rfl) (by omega) (by omega)
  have hk : (if (0 : Int) ≤ -1 then (-1 : Int).toNat else (-1 + (cc.niter : Int)).toNat) = chain.nrow - 1 := by
    rw [if_neg (by omega), g2]; omega
  rw [hk] at hfv
  have hgal : ∀ c ∈ galaxyCols, c ∉ allbands := by
    intro c hc hca
    have := List.nodup_append.mp hn
    exact this.2.2 c (List.mem_cons_of_mem _ hca) c hc rfl
  have hmain : ∀ (m : Nat) (r : Row K), act[m]? = some r →
        final.index m = r.sourceIndex ∧
        (∀ (j : Nat) (c : String), (patchBands ++ galaxyCols)[j]? = some c →
          final.at_ m c = chain.at_ (chain.nrow - 1) (m * (patchBands.length + 6) + j) + Chain.refOf ref c) ∧
        (∀ c ∈ allbands, c ∉ patchBands → final.at_ m c = colOf allbands r.par c) := by
    intro m r hr
    obtain ⟨hm, -⟩ := List.getElem?_eq_some_iff.mp hr
    refine ⟨?_, ?_, ?_⟩
    · rw [hfi]
      apply g4
      rw [List.getElem?_map, List.getElem?_range (by simpa [asTable] using hm)]
      simp [asTable, hr]
    · intro j c hc
      have hmem : c ∈ patchBands ++ galaxyCols := List.mem_of_getElem? hc
      have hin : c ∈ (asTable allbands act).names := by
        simp only [asTable, List.mem_append] at hmem ⊢
        exact hmem.imp (fun h => hsub.subset h) id
      rw [hfv m c hin (by rw [hnames]; exact hmem)]
      have := (g5 m (by rw [hidx]; exact hm) (chain.nrow - 1) (by omega) j c hc).2
      rw [hg] at this
      exact this
    · intro c hc hcn
      rw [hfo m c (by simp [asTable, hc]) (by
        rw [hnames, List.mem_append]
        rintro (h | h)
        · exact hcn h
        · exact hgal c h hc)]
      simp [asTable, hr]
  unfold fill
  rw [hcc, Option.bind_some]
  cases cov with
  | none =>
    refine ⟨final, none, by rw [covBlocks, Option.bind_some, hf]; rfl, hmain, fun _ => rfl, ?_⟩
    intro c h; exact absurd h (by simp)
  | some c =>
    simp only [covBlocks]
    unfold extractBlockDiag
    rw [if_neg (by rw [hg]; omega)]
    rw [Option.map_some, Option.bind_some, hf, Option.map_some]
    refine ⟨final, _, rfl, hmain, fun h => absurd h (by simp), ?_⟩
    intro c' h hr hc
    obtain rfl := Option.some.inj h
    congr 1
    simp only [lt_irrefl, if_false, Chain.View.dropRows, contiguous, neg_zero, Int.toNat_zero, Nat.mul_zero,
      Nat.zero_min, Nat.zero_mul, Nat.sub_zero, Nat.zero_add, List.map_map, hg, hr, hc, hcols]
    rw [Nat.mul_div_cancel _ (by omega), min_self]
    apply List.map_congr_left
    intro m hm
    simp only [Function.comp_apply, List.map_map]
    apply List.map_congr_left
    intro i hi
    simp only [Function.comp_apply, List.map_map]
    apply List.map_congr_left
    intro j hj
    rw [List.mem_range] at hm hi hj
    simp only [Function.comp_apply, buffer]
    set P := patchBands.length + 6 with hP
    have hlt : m * P + j < act.length * P := by
      have : (m + 1) * P ≤ act.length * P := Nat.mul_le_mul_right _ hm
      rw [Nat.succ_mul] at this; omega
    have e : m * (P * (act.length * P) + P * 1) + i * (act.length * P) + j * 1 =
        (m * P + j) + (m * P + i) * (act.length * P) := by ring
    rw [e, Nat.add_mul_div_right _ _ (by omega), Nat.div_eq_of_lt hlt, Nat.zero_add, Nat.add_mul_mod_self_right,
      Nat.mod_eq_of_lt hlt]

/-- The rows checked in have the source indices of the rows handed out. -/
lemma ofTable_index (allbands : List String) (act : List (Row K)) (final : Table K)
    (h : ∀ (m : Nat) (r : Row K), act[m]? = some r → final.index m = r.sourceIndex) :
    (ofTable allbands act final).map (·.sourceIndex) = act.map (·.sourceIndex) := by
  apply List.ext_getElem?
  intro m
  rw [List.getElem?_map, List.getElem?_map]
  simp only [ofTable, List.getElem?_mapIdx]
  cases hr : act[m]? with
  | none => rfl
  | some r => simp [h m r hr]

end

section
variable {K B : Type} [CommRing K] [LinearOrder K]

/-- C108. After a fit and its check-in every active source has the parameters of the last sample: the
flux in every band of the patch, position (put back on the sky), axis ratio, angle, radius and index at
its own place in the chain, and the old flux in every band without data.  Its counters and flags are
updated, and the sources that were not active keep their parameters. -/
theorem C108_scene (allbands patchBands : List String) (ref : K × K) (s : State K B (List (List K)))
    (act : List (Row K)) (fixed : Option (List (Row K))) (chain : Arr2 K) (cov : Option (Arr2 K)) (niter : Int)
    (taskID : Option String)
    (hn : (("source_index" :: allbands) ++ ["ra", "dec", "q", "pa", "rhalf", "sersic"]).Nodup)
    (hsub : patchBands.Sublist allbands)
    (hrows : 0 < chain.nrow) (hcols : chain.ncol = act.length * (patchBands.length + 6))
    (hact : ∀ r ∈ act, r.sourceIndex < s.rows.length) (hnd : (act.map (·.sourceIndex)).Nodup)
    (hfix : ∀ f, fixed = some f → ∀ r ∈ f, r.sourceIndex < s.rows.length) :
    ∃ s', finish allbands patchBands ref s act fixed chain cov niter taskID = some (s', none) ∧
      (∀ (m : Nat) (r : Row K), act[m]? = some r → ∀ old : Row K, s.rows[r.sourceIndex]? = some old →
        ∃ new, s'.rows[r.sourceIndex]? = some new ∧
          (∀ (j : Nat) (b : String), patchBands[j]? = some b → ∃ k : Nat, allbands[k]? = some b ∧
            new.par.flux[k]? = some (chain.at_ (chain.nrow - 1) (m * (patchBands.length + 6) + j))) ∧
          (∀ (k : Nat) (b : String) (f : K), allbands[k]? = some b → b ∉ patchBands → r.par.flux[k]? = some f →
            new.par.flux[k]? = some f) ∧
          new.par.ra = chain.at_ (chain.nrow - 1) (m * (patchBands.length + 6) + patchBands.length) + ref.1 ∧
          new.par.dec = chain.at_ (chain.nrow - 1) (m * (patchBands.length + 6) + patchBands.length + 1) + ref.2 ∧
          new.par.q = chain.at_ (chain.nrow - 1) (m * (patchBands.length + 6) + patchBands.length + 2) ∧
          new.par.pa = chain.at_ (chain.nrow - 1) (m * (patchBands.length + 6) + patchBands.length + 3) ∧
          new.par.rhalf = chain.at_ (chain.nrow - 1) (m * (patchBands.length + 6) + patchBands.length + 4) ∧
          new.par.sersic = chain.at_ (chain.nrow - 1) (m * (patchBands.length + 6) + patchBands.length + 5) ∧
          new.isActive = false ∧ new.isValid = true ∧ new.nIter = old.nIter + niter ∧ new.id = old.id) ∧
      (∀ (i : Nat) (old : Row K), s.rows[i]? = some old → (∀ r ∈ act, r.sourceIndex ≠ i) →
        ∃ new, s'.rows[i]? = some new ∧ new.par = old.par ∧ new.isActive = old.isActive ∧
          new.nIter = old.nIter ∧ new.id = old.id) := by
  obtain ⟨final, blocks, hf, hmain, -, -⟩ := fill_spec allbands patchBands ref act chain cov hn hsub hrows hcols
  unfold finish
  rw [hf, Option.map_some]
  simp only
  set a : CheckinArgs K B (List (List K)) := {
      active := ofTable allbands act final
      fixed := fixed
      niter := niter
      blockCovs := storable (allbands.length + galaxyCols.length) blocks
      newBounds := none
      taskID := taskID } with ha
  have hrow : ∀ (m : Nat) (r : Row K), act[m]? = some r → ∃ r', a.active[m]? = some r' ∧
      r'.sourceIndex = r.sourceIndex ∧ r'.par = ⟨allbands.map (final.at_ m), final.at_ m "ra", final.at_ m "dec",
        final.at_ m "q", final.at_ m "pa", final.at_ m "sersic", final.at_ m "rhalf"⟩ := by
    intro m r hr
    refine ⟨_, by rw [ha]; simp only [ofTable, List.getElem?_mapIdx, hr, Option.map_some]; rfl, ?_, rfl⟩
    rw [(hmain m r hr).1]; rfl
  have hidx : a.active.map (·.sourceIndex) = act.map (·.sourceIndex) :=
    ofTable_index allbands act final fun m r hr => (hmain m r hr).1
  have hact' : ∀ r ∈ a.active, r.sourceIndex < s.rows.length := by
    intro r hr
    have : r.sourceIndex ∈ act.map (·.sourceIndex) := by rw [← hidx]; exact List.mem_map_of_mem hr
    obtain ⟨r0, h0, e⟩ := List.mem_map.mp this
    rw [← e]; exact hact r0 h0
  obtain ⟨-, c2, c3⟩ := SuperScene.C05_checkin_rows s a hact' hfix (by rw [hidx]; exact hnd)
  have hnone : (SuperScene.checkin s a).2 = none := by
    unfold SuperScene.checkin
    have k1 : ¬ (a.actIdx.any (fun i => decide (s.rows.length ≤ i))) = true := by
      rw [List.any_eq_true]
      rintro ⟨i, hi, h⟩
      obtain ⟨r, hr, rfl⟩ := List.mem_map.mp hi
      have := hact' r hr
      simp at h; omega
    have k2 : ¬ (a.fixIdx.any (fun i => decide (s.rows.length ≤ i))) = true := by
      rw [List.any_eq_true]
      rintro ⟨i, hi, h⟩
      unfold CheckinArgs.fixIdx at hi
      split at hi
      · rename_i f hf'
        obtain ⟨r, hr, rfl⟩ := List.mem_map.mp hi
        have := hfix f hf' r hr
        simp at h; omega
      · simp at hi
    simp only
    rw [if_neg k1, if_neg k2]
    rfl
  refine ⟨(SuperScene.checkin s a).1, by rw [← hnone], ?_, ?_⟩
  · intro m r hr old hold
    obtain ⟨r', h1, h2, h3⟩ := hrow m r hr
    obtain ⟨new, n1, n2, n3, n4, n5, -, n7, -⟩ := c2 r' (List.mem_of_getElem? h1) old (by rw [h2]; exact hold)
    rw [h2] at n1
    rw [h3] at n2
    obtain ⟨-, hv, ho⟩ := hmain m r hr
    have hshape : ∀ (k : Nat) (c : String), galaxyCols[k]? = some c → final.at_ m c =
        chain.at_ (chain.nrow - 1) (m * (patchBands.length + 6) + patchBands.length + k) + Chain.refOf ref c := by
      intro k c hc
      rw [hv (patchBands.length + k) c (by rw [List.getElem?_append_right (by omega), Nat.add_sub_cancel_left]; exact hc),
        Nat.add_assoc]
    have hnb := (List.nodup_append.mp hn).1
    have hband : ∀ b ∈ allbands, Chain.refOf ref b = 0 := by
      intro b hb
      have hd := (List.nodup_append.mp hn).2.2 b (List.mem_cons_of_mem _ hb)
      unfold Chain.refOf
      rw [if_neg (hd "ra" (by simp)), if_neg (hd "dec" (by simp))]
    refine ⟨new, n1, ?_, ?_, ?_, ?_, ?_, ?_, ?_, ?_, n3, n4, n5, n7⟩
    · intro j b hb
      have hba : b ∈ allbands := hsub.subset (List.mem_of_getElem? hb)
      obtain ⟨k, hk⟩ := List.mem_iff_getElem?.mp hba
      refine ⟨k, hk, ?_⟩
      rw [n2]
      simp only [List.getElem?_map, hk, Option.map_some]
      rw [hv j b (by
        obtain ⟨hj, -⟩ := List.getElem?_eq_some_iff.mp hb
        rw [List.getElem?_append_left hj]; exact hb), hband b hba, add_zero]
    · intro k b f hk hnot hfl
      rw [n2]
      simp only [List.getElem?_map, hk, Option.map_some]
      have hba : b ∈ allbands := List.mem_of_getElem? hk
      rw [ho b hba hnot, colOf, if_pos hba]
      obtain ⟨hk', e⟩ := List.getElem?_eq_some_iff.mp hk
      rw [← e, (List.nodup_cons.mp hnb).2.idxOf_getElem k hk', List.getD_eq_getElem?_getD, hfl]
      rfl
    · rw [n2]; exact hshape 0 "ra" rfl
    · rw [n2]; exact hshape 1 "dec" rfl
    · rw [n2]; exact (hshape 2 "q" rfl).trans (by simp [Chain.refOf])
    · rw [n2]; exact (hshape 3 "pa" rfl).trans (by simp [Chain.refOf])
    · rw [n2]; exact (hshape 4 "rhalf" rfl).trans (by simp [Chain.refOf])
    · rw [n2]; exact (hshape 5 "sersic" rfl).trans (by simp [Chain.refOf])
  · intro i old hold hni
    obtain ⟨new, n1, n2, -, -⟩ := c3 i old hold (by
      intro r hr e
      have : r.sourceIndex ∈ act.map (·.sourceIndex) := by rw [← hidx]; exact List.mem_map_of_mem hr
      obtain ⟨r0, h0, e0⟩ := List.mem_map.mp this
      exact hni r0 h0 (e0.trans e))
    exact ⟨new, n1, by rw [n2], by rw [n2], by rw [n2], by rw [n2]⟩

/-- C108, mass matrices. When the patch has data in all bands, the matrix kept for an active source after
the check-in is its own block of the sampler's covariance matrix, and the matrix handed out for a later
fit of the same sources is the sampler's matrix without the blocks between sources.  Matrices of other
sources do not change. -/
theorem C108_covs (allbands : List String) (ref : K × K) (s : State K B (List (List K)))
    (act : List (Row K)) (fixed : Option (List (Row K))) (chain cov : Arr2 K) (niter : Int)
    (taskID : Option String)
    (hn : (("source_index" :: allbands) ++ ["ra", "dec", "q", "pa", "rhalf", "sersic"]).Nodup)
    (hrows : 0 < chain.nrow) (hcols : chain.ncol = act.length * (allbands.length + 6))
    (hcov : cov.nrow = chain.ncol ∧ cov.ncol = chain.ncol)
    (hact : ∀ r ∈ act, r.sourceIndex < s.rows.length) (hnd : (act.map (·.sourceIndex)).Nodup)
    (hfix : ∀ f, fixed = some f → ∀ r ∈ f, r.sourceIndex < s.rows.length)
    (hlen : s.covs.length = s.rows.length) :
    ∃ s', finish allbands allbands ref s act fixed chain (some cov) niter taskID = some (s', none) ∧
      (∀ (m : Nat) (r : Row K), act[m]? = some r →
        ∃ C, s'.covs[r.sourceIndex]? = some C ∧ C.length = allbands.length + 6 ∧
          ∀ i < allbands.length + 6, ∃ row : List K, C[i]? = some row ∧ row.length = allbands.length + 6 ∧
            ∀ j < allbands.length + 6, row[j]? =
              some (cov.at_ (m * (allbands.length + 6) + i) (m * (allbands.length + 6) + j))) ∧
      (∀ i, (∀ r ∈ act, r.sourceIndex ≠ i) → s'.covs[i]? = s.covs[i]?) ∧
      (covOf (allbands.length + 6) s'.covs (act.map (·.sourceIndex))).1 = chain.ncol ∧
      ∀ a < chain.ncol, ∀ b < chain.ncol,
        (covOf (allbands.length + 6) s'.covs (act.map (·.sourceIndex))).2 a b =
          if a / (allbands.length + 6) = b / (allbands.length + 6) then cov.at_ a b else 0 := by
  obtain ⟨final, blocks, hf, hmain, -, hbl⟩ := fill_spec allbands allbands ref act chain (some cov) hn
    (List.Sublist.refl _) hrows hcols
  obtain ⟨s', hs', -, -⟩ := C108_scene allbands allbands ref s act fixed chain (some cov) niter taskID hn
    (List.Sublist.refl _) hrows hcols hact hnd hfix
  have hb := hbl cov rfl hcov.1 hcov.2
  set P := allbands.length + 6 with hP
  refine ⟨s', hs', ?_⟩
  unfold finish at hs'
  rw [hf, Option.map_some] at hs'
  simp only at hs'
  have hst : storable (allbands.length + galaxyCols.length) blocks = blocks := by
    rw [hb]
    unfold storable
    simp only
    rw [if_pos]
    rw [List.all_eq_true]
    intro x hx
    obtain ⟨m, -, rfl⟩ := List.mem_map.mp hx
    simp [galaxyCols, hP]
  rw [hst] at hs'
  have hidx := ofTable_index allbands act final fun m r hr => (hmain m r hr).1
  obtain ⟨c1, -, -, -, c5, -, -⟩ := SuperScene.C05_checkin_bounds_covs s _ s' (Option.some.inj hs')
    (by simp only; rw [hidx]; exact hnd)
  have hcell : ∀ (m : Nat) (r : Row K), act[m]? = some r → s'.covs[r.sourceIndex]? =
      some ((List.range P).map fun i => (List.range P).map fun j => cov.at_ (m * P + i) (m * P + j)) := by
    intro m r hr
    obtain ⟨hm, -⟩ := List.getElem?_eq_some_iff.mp hr
    obtain ⟨r', h1, h2⟩ : ∃ r', (ofTable allbands act final)[m]? = some r' ∧ r'.sourceIndex = r.sourceIndex := by
      have := congrArg (fun l => l[m]?) hidx
      simp only [List.getElem?_map, hr, Option.map_some] at this
      obtain ⟨r', h1, h2⟩ := Option.map_eq_some_iff.mp this
      exact ⟨r', h1, h2⟩
    rw [← h2]
    refine c5 _ hb ?_ m r' _ h1 ?_ ?_
    · simp [ofTable]
    · rw [List.getElem?_map, List.getElem?_range hm]; rfl
    · rw [h2, hlen]; exact hact r (List.mem_of_getElem? hr)
  refine ⟨?_, ?_, ?_, ?_⟩
  · intro m r hr
    refine ⟨_, hcell m r hr, by simp, ?_⟩
    intro i hi
    refine ⟨_, by rw [List.getElem?_map, List.getElem?_range hi]; rfl, by simp, ?_⟩
    intro j hj
    rw [List.getElem?_map, List.getElem?_range hj]; rfl
  · intro i hi
    refine (c1 i ?_).2
    intro r hr e
    have : r.sourceIndex ∈ act.map (·.sourceIndex) := by rw [← hidx]; exact List.mem_map_of_mem hr
    obtain ⟨r0, h0, e0⟩ := List.mem_map.mp this
    exact hi r0 h0 (e0.trans e)
  · simp [covOf, hcols]
  · intro a ha b hb'
    have hPpos : 0 < P := by omega
    unfold covOf Chain.blockDiag
    simp only
    by_cases hab : a / P = b / P
    · rw [if_pos hab, if_pos hab]
      have hm : a / P < act.length := by rw [Nat.div_lt_iff_lt_mul hPpos, ← hcols]; exact ha
      have hr : act[a / P]? = some act[a / P] := List.getElem?_eq_getElem hm
      have hget : (act.map (·.sourceIndex)).getD (a / P) 0 = act[a / P].sourceIndex := by
        rw [List.getD_eq_getElem?_getD, List.getElem?_map, hr]; rfl
      have h1 : s'.covs.getD act[a / P].sourceIndex [] =
          (List.range P).map fun i => (List.range P).map fun j => cov.at_ (a / P * P + i) (a / P * P + j) := by
        rw [List.getD_eq_getElem?_getD, hcell _ _ hr]; rfl
      rw [hget, h1]
      have h2 : ∀ (f : Nat → List K) (i : Nat), i < P → ((List.range P).map f).getD i [] = f i := by
        intro f i hi
        rw [List.getD_eq_getElem?_getD, List.getElem?_map, List.getElem?_range hi]; rfl
      have h3 : ∀ (f : Nat → K) (i : Nat), i < P → ((List.range P).map f).getD i 0 = f i := by
        intro f i hi
        rw [List.getD_eq_getElem?_getD, List.getElem?_map, List.getElem?_range hi]; rfl
      rw [h2 _ _ (Nat.mod_lt _ hPpos), h3 _ _ (Nat.mod_lt _ hPpos), Nat.div_add_mod' a P, hab, Nat.div_add_mod' b P]
    · rw [if_neg hab, if_neg hab]

/-- C108 refuted for patches that lack a band: the sampler's matrix is not kept at all, and the matrix
handed out for the next fit of the sources does not have the size of the parameter vector. -/
theorem C108_missing_band_refuted (allbands patchBands : List String) (ref : K × K)
    (s : State K B (List (List K))) (act : List (Row K)) (fixed : Option (List (Row K))) (chain cov : Arr2 K)
    (niter : Int) (taskID : Option String)
    (hn : (("source_index" :: allbands) ++ ["ra", "dec", "q", "pa", "rhalf", "sersic"]).Nodup)
    (hsub : patchBands.Sublist allbands) (hmiss : patchBands.length < allbands.length)
    (hrows : 0 < chain.nrow) (hcols : chain.ncol = act.length * (patchBands.length + 6))
    (hcov : cov.nrow = chain.ncol ∧ cov.ncol = chain.ncol) (hne : act ≠ [])
    (hact : ∀ r ∈ act, r.sourceIndex < s.rows.length) (hnd : (act.map (·.sourceIndex)).Nodup)
    (hfix : ∀ f, fixed = some f → ∀ r ∈ f, r.sourceIndex < s.rows.length) :
    ∃ s', finish allbands patchBands ref s act fixed chain (some cov) niter taskID = some (s', none) ∧
      s'.covs = s.covs ∧ (covOf (allbands.length + 6) s'.covs (act.map (·.sourceIndex))).1 ≠ chain.ncol := by
  obtain ⟨final, blocks, hf, hmain, -, hbl⟩ := fill_spec allbands patchBands ref act chain (some cov) hn
    hsub hrows hcols
  obtain ⟨s', hs', -, -⟩ := C108_scene allbands patchBands ref s act fixed chain (some cov) niter taskID hn
    hsub hrows hcols hact hnd hfix
  have hb := hbl cov rfl hcov.1 hcov.2
  have hpos : 0 < act.length := List.length_pos_iff.mpr hne
  refine ⟨s', hs', ?_, ?_⟩
  · unfold finish at hs'
    rw [hf, Option.map_some] at hs'
    simp only at hs'
    have hst : storable (allbands.length + galaxyCols.length) blocks = none := by
      rw [hb]
      unfold storable
      simp only
      rw [if_neg]
      rw [List.all_eq_true]
      intro h
      have := h _ (List.mem_map_of_mem (List.mem_range.mpr hpos))
      simp [galaxyCols] at this
      omega
    rw [hst] at hs'
    have hidx := ofTable_index allbands act final fun m r hr => (hmain m r hr).1
    exact (SuperScene.C05_checkin_bounds_covs s _ s' (Option.some.inj hs')
      (by simp only; rw [hidx]; exact hnd)).2.2.1 rfl
  · simp only [covOf, List.length_map, hcols]
    intro h
    have := Nat.eq_of_mul_eq_mul_left hpos h
    omega

end

/-- A case for C108: two active sources of three, two bands. -/
def exState : State ℤ Nat (List (List ℤ)) :=
  { rows := (List.range 3).map fun i : Nat => ⟨7 + (i : Int), i, i != 1, false, 5, 1, ⟨[1, 2], 10, 20, 1, 0, 2, 1⟩⟩
    nActive := 2, nFixed := 0, bounds := [0, 0, 0], covs := [[], [], []], sourcelog := [], patchlog := [] }

/-- The two active sources, in the order handed out. -/
def exAct : List (Row ℤ) := [2, 0].filterMap fun i : Nat => exState.rows[i]?

/-- A chain of two samples. -/
def exChain : Arr2 ℤ := ⟨2, 16, fun it j => 100 * it + j⟩

example : (("source_index" :: ["a", "b"]) ++ ["ra", "dec", "q", "pa", "rhalf", "sersic"]).Nodup ∧
    ((finish ["a", "b"] ["a", "b"] (1000, 2000) exState exAct none exChain none 3 (some "t")).map
      (fun o => (o.1.rows.map fun r => (r.par.flux, [r.par.ra, r.par.dec, r.par.sersic, r.nIter])))) =
    some [([108, 109], [1110, 2111, 115, 8]), ([1, 2], [10, 20, 2, 5]), ([100, 101], [1102, 2103, 107, 8])] := by
  decide +kernel

end Forcepho.Fitting
