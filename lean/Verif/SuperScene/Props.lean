import Verif.SuperScene.Lemmas
import Mathlib.Data.List.Sort
import Mathlib.Algebra.Order.BigOperators.Group.List

/-!
# Properties C01–C12 of the super-scene

Theorems are about `run E cfg (fresh cat bounds one) ops`: an ingested catalog followed by any
finite list of checkouts (succeeding, refused or raising) and check-ins.
-/

set_option autoImplicit false

namespace Forcepho.SuperScene

variable {K B C : Type} [CommRing K] [LinearOrder K]

/-! ## A concrete environment used to exhibit non-trivial cases -/

/-- Sources on a line at integer positions. -/
def lineEnv (pos : List Int) : Env Int where
  dist c i := |c.1 - pos.getD i 0|
  ball c r := (List.range pos.length).filter fun i => decide (|c.1 - pos.getD i 0| ≤ r)
  argsortBy key l := l.insertionSort fun i j => key i ≤ key j

theorem lineEnv_ok (pos : List Int) : (lineEnv pos).OK pos.length where
  ball_nodup c r := List.nodup_range.filter _
  mem_ball c r i := by simp [lineEnv]
  argsort_perm key l := List.perm_insertionSort _ l
  argsort_sorted key l := by
    have : IsTrans Nat fun i j => key i ≤ key j := ⟨fun _ _ _ h1 h2 => le_trans h1 h2⟩
    have : Std.Total fun i j => key i ≤ key j := ⟨fun _ _ => le_total _ _⟩
    exact List.pairwise_insertionSort (fun i j => key i ≤ key j) l

/-- A row with position `x` and half-light radius `rh`. -/
def mkRow (x rh : Int) : Row Int where
  id := 0
  sourceIndex := 0
  isActive := false
  isValid := false
  nIter := 0
  nPatch := 0
  par := { flux := [1], ra := x, dec := 0, q := 1, pa := 0, sersic := 1, rhalf := rh }

/-- Three sources on a line at 0, 3, 5. -/
def cat3 : List (Row Int) := [mkRow 0 0, mkRow 3 0, mkRow 5 0]
/-- The environment of `cat3`. -/
def env3 : Env Int := lineEnv [0, 3, 5]
/-- Configuration used with `cat3`. -/
def cfg3 : Config Int where
  targetNiter := 10
  maxactive := 2
  nscale := 1
  boundaryRadius := 4
  maxradius := 3
  minradius := 1

/-- The starting system of the examples. -/
def sys3 : Sys Int Nat Nat := fresh cat3 [7, 8, 9] 1

/-- Check out around source 0, then around source 2, then return the first region. -/
def ops3 : List (Op Int Nat Nat) :=
  [.checkout 0, .checkout 2, .checkout 1,
   .checkin 0 [(mkRow 1 2).par] 5 none none (some "a")]

/-! ## C01 -/

/-- C01: in every history the counts equal the totals over outstanding regions and the number
of rows flagged active. -/
theorem C01_counts (E : Env K) (cfg : Config K) (cat : List (Row K)) (hE : E.OK cat.length)
    (bounds : List B) (one : C) (ops : List (Op K B C)) :
    let y := (run E cfg (fresh cat bounds one) ops).1
    y.st.nActive = (y.st.rows.countP (·.isActive) : Int) ∧
    y.st.nActive = (((y.out.map fun h => h.active.length).sum : Nat) : Int) ∧
    y.st.nFixed = (((y.out.map fun h => h.fixed.length).sum : Nat) : Int) := by
  intro y
  have H : SInv cat.length y := inv_run hE ops _ (inv_fresh cat bounds one)
  have e1 : (y.out.flatMap Held.actIdx).length = (y.out.map fun h => h.active.length).sum := by
    rw [List.length_flatMap]; congr 1; apply List.map_congr_left; intro h _; simp [Held.actIdx]
  have e2 : (y.out.flatMap Held.fixIdx).length = (y.out.map fun h => h.fixed.length).sum := by
    rw [List.length_flatMap]; congr 1; apply List.map_congr_left; intro h _; simp [Held.fixIdx]
  have hlt : ∀ i ∈ y.out.flatMap Held.actIdx, i < y.st.rows.length := by
    intro i hi
    obtain ⟨h, hh, hi⟩ := List.mem_flatMap.1 hi
    rw [H.len]; exact H.heldLt h hh i (List.mem_append_left _ hi)
  refine ⟨?_, ?_, ?_⟩
  · rw [countP_eq_length_of_mem_iff y.st.rows (·.isActive) _ H.actNodup hlt
      (fun i a ha => H.flag i a ha), H.nAct]
  · rw [H.nAct, e1]
  · rw [H.nFix, e2]

/-- A history for which C01 is not about zeros: two regions are out, three sources active. -/
example : env3.OK cat3.length ∧
    (run env3 cfg3 sys3 (ops3.take 3)).1.st.nActive = 3 ∧
    (run env3 cfg3 sys3 (ops3.take 3)).1.st.nFixed = 1 ∧
    (run env3 cfg3 sys3 (ops3.take 3)).1.out.length = 2 :=
  ⟨lineEnv_ok _, by decide +kernel, by decide +kernel, by decide +kernel⟩

/-! ## C02 -/

/-- C02: no source is active in two outstanding regions (positions `j ≠ k` of the list of
outstanding regions), and each region lists distinct sources, active and fixed apart. -/
theorem C02_exclusive (E : Env K) (cfg : Config K) (cat : List (Row K)) (hE : E.OK cat.length)
    (bounds : List B) (one : C) (ops : List (Op K B C)) :
    let y := (run E cfg (fresh cat bounds one) ops).1
    (∀ (j k : Nat) (h h' : Held K), y.out[j]? = some h → y.out[k]? = some h' → j ≠ k →
      ∀ r ∈ h.active, ∀ r' ∈ h'.active, r.sourceIndex ≠ r'.sourceIndex) ∧
    (∀ h ∈ y.out, (h.active.map (·.sourceIndex)).Nodup ∧ (h.fixed.map (·.sourceIndex)).Nodup ∧
      ∀ r ∈ h.active, ∀ r' ∈ h.fixed, r.sourceIndex ≠ r'.sourceIndex) := by
  intro y
  have H : SInv cat.length y := inv_run hE ops _ (inv_fresh cat bounds one)
  constructor
  · intro j k h h' hj hk hjk r hr r' hr' he
    have hnd := ((flatMap_eraseIdx_perm y.out j h Held.actIdx hj).nodup_iff).1 H.actNodup
    have h1 : r.sourceIndex ∈ h.actIdx := List.mem_map_of_mem hr
    have h2 : r.sourceIndex ∈ (y.out.eraseIdx j).flatMap Held.actIdx := by
      rw [List.mem_flatMap]
      refine ⟨h', ?_, by rw [he]; exact List.mem_map_of_mem hr'⟩
      rw [List.mem_eraseIdx_iff_getElem?]
      exact ⟨k, hjk.symm, hk⟩
    exact (List.nodup_append.1 hnd).2.2 _ h1 _ h2 rfl
  · intro h hh
    have := List.nodup_append.1 (H.heldNodup h hh)
    exact ⟨this.1, this.2.1, fun r hr r' hr' =>
      this.2.2 _ (List.mem_map_of_mem hr) _ (List.mem_map_of_mem hr')⟩

example : ((run env3 cfg3 sys3 (ops3.take 3)).1.out.map
    fun h => (h.active.map (·.sourceIndex), h.fixed.map (·.sourceIndex))) =
    [([0], [1]), ([2, 1], [])] := by decide +kernel

/-! ## C03 -/

/-- The claim of the class documentation: whatever an outstanding region holds (active or
fixed) is held by no other outstanding region, and is flagged invalid. -/
def C03_claim (y : Sys K B C) : Prop :=
  (∀ (j k : Nat) (h h' : Held K), y.out[j]? = some h → y.out[k]? = some h' → j ≠ k →
    ∀ r ∈ h.active ++ h.fixed, ∀ r' ∈ h'.active ++ h'.fixed, r.sourceIndex ≠ r'.sourceIndex) ∧
  (∀ h ∈ y.out, ∀ r ∈ h.active ++ h.fixed, ∀ row : Row K, y.st.rows[r.sourceIndex]? = some row →
    row.isValid = false)

/-- C03 fails: source 1 is fixed in the first region and active in the second. -/
theorem C03_refuted_shared : ¬ C03_claim (run env3 cfg3 sys3 (ops3.take 2)).1 := by
  intro h
  have hex : ∃ h ∈ (run env3 cfg3 sys3 (ops3.take 2)).1.out[0]?,
      ∃ h' ∈ (run env3 cfg3 sys3 (ops3.take 2)).1.out[1]?,
      ∃ r ∈ h.active ++ h.fixed, ∃ r' ∈ h'.active ++ h'.fixed,
        r.sourceIndex = r'.sourceIndex := by decide +kernel
  obtain ⟨h1, e1, h2, e2, r, hr, r', hr', he⟩ := hex
  exact h.1 0 1 h1 h2 e1 e2 (by decide) r hr r' hr' he

/-- C03 fails: after the first region is returned, source 1 is active in the second region but
flagged valid. -/
theorem C03_refuted_valid :
    ∃ h ∈ (run env3 cfg3 sys3 ops3).1.out, ∃ r ∈ h.active,
      ∃ row, (run env3 cfg3 sys3 ops3).1.st.rows[r.sourceIndex]? = some row ∧
        row.isValid = true ∧ row.isActive = true := by
  decide +kernel

/-- C03, the part that holds: a source active in an outstanding region belongs (active or
fixed) to no region handed out after it; every source flagged invalid is held by an
outstanding region; so when nothing is outstanding every source is valid and inactive.
Missing: the same for fixed sources (refuted above). -/
theorem C03_partial (E : Env K) (cfg : Config K) (cat : List (Row K)) (hE : E.OK cat.length)
    (bounds : List B) (one : C) (ops : List (Op K B C)) :
    let y := (run E cfg (fresh cat bounds one) ops).1
    (∀ (j k : Nat) (h h' : Held K), y.out[j]? = some h → y.out[k]? = some h' → j < k →
      ∀ r ∈ h.active, ∀ r' ∈ h'.active ++ h'.fixed, r.sourceIndex ≠ r'.sourceIndex) ∧
    (∀ (i : Nat) (row : Row K), y.st.rows[i]? = some row → row.isValid = false →
      ∃ h ∈ y.out, ∃ r ∈ h.active ++ h.fixed, r.sourceIndex = i) ∧
    (y.out = [] → ∀ row ∈ y.st.rows, row.isValid = true ∧ row.isActive = false) := by
  intro y
  have H : SInv cat.length y := inv_run hE ops _ (inv_fresh cat bounds one)
  have G : SInv2 y := inv2_run hE ops _ (inv_fresh cat bounds one) (inv2_fresh cat bounds one)
  have hinv : ∀ (i : Nat) (row : Row K), y.st.rows[i]? = some row → row.isValid = false →
      ∃ h ∈ y.out, ∃ r ∈ h.active ++ h.fixed, r.sourceIndex = i := by
    intro i row hr hv
    obtain ⟨h, hh, hi⟩ := G.invalid i row hr hv
    simp only [Held.actIdx, Held.fixIdx, ← List.map_append] at hi
    obtain ⟨r, hr, he⟩ := List.mem_map.1 hi
    exact ⟨h, hh, r, hr, he⟩
  refine ⟨?_, hinv, ?_⟩
  · intro j k h h' hj hk hjk r hr r' hr' he
    obtain ⟨hjl, rfl⟩ := List.getElem?_eq_some_iff.1 hj
    obtain ⟨hkl, rfl⟩ := List.getElem?_eq_some_iff.1 hk
    have := List.pairwise_iff_getElem.1 G.later j k hjl hkl hjk r.sourceIndex
      (List.mem_map_of_mem hr)
    apply this
    simp only [Held.actIdx, Held.fixIdx, ← List.map_append]
    rw [he]
    exact List.mem_map_of_mem hr'
  · intro ho row hrow
    obtain ⟨i, hi, rfl⟩ := List.mem_iff_getElem.1 hrow
    have hg := List.getElem?_eq_getElem hi
    constructor
    · by_contra hv
      obtain ⟨h, hh, _⟩ := hinv i _ hg (by simpa using hv)
      rw [ho] at hh; simp at hh
    · have := H.flag i _ hg
      rw [ho] at this
      simpa using this

/-! ## C04 -/

/-- C04: a checkout that raises or returns no region changes nothing. -/
theorem C04_failed_checkout (E : Env K) (cfg : Config K) (s : State K B C) (k : Nat)
    (hfail : ∀ c r a f, (checkout E cfg s k).2 ≠ .region c r a f) :
    (checkout E cfg s k).1 = s := by
  rcases checkout_cases E cfg s k with ⟨e, h⟩ | h | ⟨seed, radius, act, fix, hk, hg, h⟩
  · rw [h]
  · rw [h]
  · exact absurd (by rw [h]) (hfail _ _ _ _)

/-- Both kinds of failure occur: a neighbour is active, and a seed outside the catalog. -/
example : (checkout env3 cfg3 (run env3 cfg3 sys3 (ops3.take 1)).1.st 1).2 = .invalid ∧
    (checkout env3 cfg3 sys3.st 5).2 = .raised .indexError := ⟨rfl, rfl⟩

/-! ## C05 -/

/-- C05: the effect of a check-in on every row, whatever the optional arguments (also when a
misshapen bounds array makes it raise). -/
theorem C05_checkin_rows (s : State K B C) (a : CheckinArgs K B C)
    (hact : ∀ r ∈ a.active, r.sourceIndex < s.rows.length)
    (hfix : ∀ f, a.fixed = some f → ∀ r ∈ f, r.sourceIndex < s.rows.length)
    (hnd : (a.active.map (·.sourceIndex)).Nodup) :
    (checkin s a).1.rows.length = s.rows.length ∧
    (∀ r ∈ a.active, ∀ old : Row K, s.rows[r.sourceIndex]? = some old →
      ∃ new, (checkin s a).1.rows[r.sourceIndex]? = some new ∧
        new.par = r.par ∧ new.isActive = false ∧ new.isValid = true ∧
        new.nIter = old.nIter + a.niter ∧
        new.nPatch = old.nPatch + (if a.niter > 0 then 1 else 0) ∧
        new.id = old.id ∧ new.sourceIndex = old.sourceIndex) ∧
    (∀ (i : Nat) (old : Row K), s.rows[i]? = some old → (∀ r ∈ a.active, r.sourceIndex ≠ i) →
      ∃ new, (checkin s a).1.rows[i]? = some new ∧
        new = { old with isValid := new.isValid } ∧
        ((∃ f, a.fixed = some f ∧ ∃ r ∈ f, r.sourceIndex = i) → new.isValid = true) ∧
        ((∀ f, a.fixed = some f → ∀ r ∈ f, r.sourceIndex ≠ i) → new.isValid = old.isValid)) := by
  have hact' : ∀ i ∈ a.actIdx, i < s.rows.length := by
    intro i hi
    obtain ⟨r, hr, rfl⟩ := List.mem_map.1 hi
    exact hact r hr
  have hfix' : ∀ i ∈ a.fixIdx, i < s.rows.length := by
    intro i hi
    unfold CheckinArgs.fixIdx at hi
    split at hi
    · rename_i f hf
      obtain ⟨r, hr, rfl⟩ := List.mem_map.1 hi
      exact hfix f hf r hr
    · simp at hi
  have hrows := checkin_rows s a hact' hfix' hnd
  have hfixmem : ∀ i, i ∈ a.fixIdx ↔ ∃ f, a.fixed = some f ∧ ∃ r ∈ f, r.sourceIndex = i := by
    intro i
    unfold CheckinArgs.fixIdx
    split
    · rename_i f hf
      simp [hf]
    · rename_i hf
      simp [hf]
  refine ⟨?_, ?_, ?_⟩
  · cases hr : s.rows with
    | nil =>
      have ha : a.active = [] := by
        cases h : a.active with
        | nil => rfl
        | cons r t => have := hact r (by simp [h]); simp [hr] at this
      have hlen : (checkin s a).1.rows.length = s.rows.length := by
        simp only [checkin]
        split
        · rfl
        · split
          · simp [checkinRows]
          · split <;> simp [checkinRows]
      rw [hlen, hr]
    | cons x t =>
      rw [← hr]
      exact (hrows 0 x (by simp [hr])).2
  · intro r hr old ho
    refine ⟨_, (hrows _ old ho).1, ?_⟩
    have hm : r.sourceIndex ∈ a.actIdx := List.mem_map_of_mem hr
    have hfind : a.active.find? (fun r' => r'.sourceIndex = r.sourceIndex) = some r := by
      have hnd' := hnd
      have hr0 := hr
      clear hrows hm ho hfix' hact' hfixmem hact hfix hnd hr
      revert hr0 hnd'
      generalize a.active = L
      intro hnd' hr
      induction L with
      | nil => simp at hr
      | cons b t ih =>
        rw [List.map_cons, List.nodup_cons] at hnd'
        rcases List.mem_cons.1 hr with rfl | hr
        · simp
        · have : b.sourceIndex ≠ r.sourceIndex := by
            intro he
            apply hnd'.1
            rw [he]
            exact List.mem_map_of_mem hr
          rw [List.find?_cons_of_neg (by simpa using this)]
          exact ih hnd'.2 hr
    simp [hfind, hm]
  · intro i old ho hni
    refine ⟨_, (hrows i old ho).1, ?_⟩
    have hm : i ∉ a.actIdx := by
      intro h
      obtain ⟨r, hr, he⟩ := List.mem_map.1 h
      exact hni r hr he
    have hfind : a.active.find? (fun r' => r'.sourceIndex = i) = none := by
      rw [List.find?_eq_none]
      intro r hr; simpa using hni r hr
    refine ⟨by simp [hfind, hm], ?_, ?_⟩
    · intro h
      simp [hm, (hfixmem i).2 h]
    · intro h
      have : i ∉ a.fixIdx := by
        intro h0
        obtain ⟨f, hf, r, hr, he⟩ := (hfixmem i).1 h0
        exact h f hf r hr he
      simp [hm, this]

omit [CommRing K] [LinearOrder K] in
/-- C05 for bounds and covariances: rows of sources that are not active in the check-in keep
their bounds and covariance; active ones get the supplied ones (one row per active source). -/
theorem C05_checkin_bounds_covs (s : State K B C) (a : CheckinArgs K B C) (s' : State K B C)
    (hret : checkin s a = (s', none))
    (hnd : (a.active.map (·.sourceIndex)).Nodup) :
    (∀ i, (∀ r ∈ a.active, r.sourceIndex ≠ i) →
      s'.bounds[i]? = s.bounds[i]? ∧ s'.covs[i]? = s.covs[i]?) ∧
    (a.newBounds = none → s'.bounds = s.bounds) ∧
    (a.blockCovs = none → s'.covs = s.covs) ∧
    (∀ b, a.newBounds = some b → b.length = a.active.length →
      ∀ (m : Nat) (r : Row K) (v : B), a.active[m]? = some r → b[m]? = some v →
        r.sourceIndex < s.bounds.length → s'.bounds[r.sourceIndex]? = some v) ∧
    (∀ c, a.blockCovs = some c → c.length = a.active.length →
      ∀ (m : Nat) (r : Row K) (v : C), a.active[m]? = some r → c[m]? = some v →
        r.sourceIndex < s.covs.length → s'.covs[r.sourceIndex]? = some v) ∧
    s'.bounds.length = s.bounds.length ∧ s'.covs.length = s.covs.length := by
  have hB : putBounds s.bounds a.actIdx a.newBounds = some s'.bounds ∧
      s'.covs = putCovs s.covs a.actIdx a.blockCovs := by
    unfold checkin at hret
    simp only at hret
    split at hret
    · simp at hret
    · split at hret
      · simp at hret
      · split at hret
        · simp at hret
        · rename_i w hw
          simp only [Prod.mk.injEq, and_true] at hret
          subst hret
          exact ⟨hw, rfl⟩
  obtain ⟨hB, hC⟩ := hB
  have hzip : ∀ {α : Type} (w : List α) (i : Nat), (∀ r ∈ a.active, r.sourceIndex ≠ i) →
      i ∉ (a.actIdx.zip w).map Prod.fst := by
    intro α w i hni hm
    obtain ⟨p, hp, rfl⟩ := List.mem_map.1 hm
    obtain ⟨r, hr, he⟩ := List.mem_map.1 (List.of_mem_zip hp).1
    exact hni r hr he
  have hzipnd : ∀ {α : Type} (w : List α), ((a.actIdx.zip w).map Prod.fst).Nodup := by
    intro α w
    refine List.Nodup.sublist ?_ hnd
    change List.Sublist _ a.actIdx
    generalize a.actIdx = L
    induction L generalizing w with
    | nil => simp
    | cons x t ih =>
      cases w with
      | nil => simp
      | cons y w => simpa using ih w
  have hmemzip : ∀ {α : Type} (w : List α) (m : Nat) (r : Row K) (v : α),
      a.active[m]? = some r → w[m]? = some v → (r.sourceIndex, v) ∈ a.actIdx.zip w := by
    intro α w m r v h1 h2
    apply List.mem_of_getElem? (i := m)
    rw [List.getElem?_zip_eq_some]
    exact ⟨by simp [CheckinArgs.actIdx, h1], h2⟩
  have hlenA : a.actIdx.length = a.active.length := by simp [CheckinArgs.actIdx]
  refine ⟨?_, ?_, ?_, ?_, ?_, ?_, ?_⟩
  · intro i hni
    constructor
    · cases hb : a.newBounds with
      | none => rw [hb] at hB; simp only [putBounds, Option.some.injEq] at hB; rw [hB]
      | some b =>
        rw [hb] at hB
        simp only [putBounds, Option.map_eq_some_iff] at hB
        obtain ⟨w, _, hw⟩ := hB
        rw [← hw, getElem?_assignAt_of_not_mem _ _ _ (hzip w i hni)]
    · rw [hC]
      unfold putCovs
      split
      · rfl
      · split
        · rfl
        · rw [getElem?_assignAt_of_not_mem _ _ _ (hzip _ i hni)]
  · intro hb; rw [hb] at hB; simp only [putBounds, Option.some.injEq] at hB; exact hB.symm
  · intro hb; rw [hC, hb]; rfl
  · intro b hb hl m r v h1 h2 hlt
    rw [hb] at hB
    simp only [putBounds, bcast, hlenA, hl, if_true, Option.map_some, Option.some.injEq] at hB
    rw [← hB]
    exact getElem?_assignAt_of_mem _ _ _ _ (hzipnd _) (hmemzip b m r v h1 h2) hlt
  · intro c hc hl m r v h1 h2 hlt
    rw [hC, hc]
    simp only [putCovs, bcast, hlenA, hl, if_true]
    exact getElem?_assignAt_of_mem _ _ _ _ (hzipnd _) (hmemzip c m r v h1 h2) hlt
  · cases hb : a.newBounds with
    | none => rw [hb] at hB; simp only [putBounds, Option.some.injEq] at hB; rw [hB]
    | some b =>
      rw [hb] at hB
      simp only [putBounds, Option.map_eq_some_iff] at hB
      obtain ⟨w, _, hw⟩ := hB
      rw [← hw, length_assignAt]
  · rw [hC]
    unfold putCovs
    split
    · rfl
    · split
      · rfl
      · rw [length_assignAt]

omit [CommRing K] [LinearOrder K] in
/-- C05, error branch: an out-of-range active index makes the call raise and change nothing. -/
theorem C05_checkin_out_of_range (s : State K B C) (a : CheckinArgs K B C)
    (h : ∃ r ∈ a.active, s.rows.length ≤ r.sourceIndex) :
    checkin s a = (s, some .indexError) := by
  obtain ⟨r, hr, hl⟩ := h
  have : a.actIdx.any (fun i => decide (s.rows.length ≤ i)) = true := by
    rw [List.any_eq_true]
    exact ⟨r.sourceIndex, List.mem_map_of_mem hr, by simpa using hl⟩
  simp [checkin, this]

/-- A check-in to which C05 applies: parameters, bounds and covariances supplied. -/
example :
    let s := (run env3 cfg3 sys3 (ops3.take 1)).1.st
    let a : CheckinArgs Int Nat Nat :=
      { active := [{ mkRow 1 2 with sourceIndex := 0 }], fixed := some [{ mkRow 3 0 with sourceIndex := 1 }],
        niter := 4, blockCovs := some [5], newBounds := some [6], taskID := some "t" }
    (checkin s a).2 = none ∧ (checkin s a).1.bounds = [6, 8, 9] ∧
    (checkin s a).1.covs = [5, 1, 1] ∧
    ((checkin s a).1.rows.map fun r => (r.par.rhalf, r.isValid, r.nIter)) =
      [(2, true, 4), (0, true, 0), (0, true, 0)] := by decide +kernel

/-! ## C06 -/

/-- C06: at any time after any history, `n_iter` of source `i` is its initial value plus the sum
of `niter` over the completed check-ins in which it was active, and `n_patch` its initial value
plus the number of those with `niter > 0`; the identifier never changes. -/
theorem C06_counters (E : Env K) (cfg : Config K) (cat : List (Row K)) (hE : E.OK cat.length)
    (bounds : List B) (one : C) (ops : List (Op K B C)) (i : Nat) (r0 : Row K)
    (h0 : cat[i]? = some r0) :
    let es := (run E cfg (fresh cat bounds one) ops).2
    ∃ r, (run E cfg (fresh cat bounds one) ops).1.st.rows[i]? = some r ∧ r.id = r0.id ∧
      r.nIter = r0.nIter + ((es.filter fun e => decide (i ∈ e.active)).map (·.niter)).sum ∧
      r.nPatch = r0.nPatch +
        ((es.filter fun e => decide (i ∈ e.active) && decide (0 < e.niter)).length : Int) := by
  have := run_counters (cfg := cfg) hE ops (fresh cat bounds one) (inv_fresh cat bounds one) i
    { r0 with sourceIndex := i, isValid := true, isActive := false }
    (by simp [fresh, ingest, h0])
  exact this

example : ((run env3 cfg3 sys3 ops3).2.map fun e => (e.active, e.niter)) = [([0], 5)] ∧
    ((run env3 cfg3 sys3 ops3).1.st.rows.map fun r => (r.nIter, r.nPatch)) =
      [(5, 1), (0, 0), (0, 0)] := by decide +kernel

/-! ## C07 -/

/-- C07: the patch log is the list of the task ids of the completed check-ins, in order; the log
of source `i` the list of those in which it was active. -/
theorem C07_logs (E : Env K) (cfg : Config K) (cat : List (Row K)) (hE : E.OK cat.length)
    (bounds : List B) (one : C) (ops : List (Op K B C)) :
    let es := (run E cfg (fresh cat bounds one) ops).2
    let s := (run E cfg (fresh cat bounds one) ops).1.st
    s.patchlog = es.filterMap (·.taskID) ∧
    ∀ i, (logGet s.sourcelog i).getD [] =
      (es.filter fun e => decide (i ∈ e.active)).filterMap (·.taskID) := by
  intro es s
  obtain ⟨h1, h2⟩ := run_logs (cfg := cfg) hE ops (fresh cat bounds one)
    (inv_fresh cat bounds one)
  have hid : ∀ l : List Event, evIDs l = l.filterMap (·.taskID) := by
    intro l
    induction l with
    | nil => rfl
    | cons e t ih =>
      cases h : e.taskID <;> simp_all [evIDs]
  constructor
  · rw [← hid]
    have : (fresh cat bounds one).st.patchlog = [] := rfl
    rw [this, List.nil_append] at h1
    exact h1
  · intro i
    rw [← hid]
    have : (logGet (fresh cat bounds one).st.sourcelog i).getD [] = [] := rfl
    rw [h2 i, this, List.nil_append]

example : (run env3 cfg3 sys3 ops3).1.st.patchlog = ["a"] ∧
    logGet (run env3 cfg3 sys3 ops3).1.st.sourcelog 0 = some ["a"] ∧
    logGet (run env3 cfg3 sys3 ops3).1.st.sourcelog 1 = none := by decide +kernel

/-! ## C08, C09 -/

/-- C08: size limits of a region. -/
theorem C08_sizes (E : Env K) (cfg : Config K) (n : Nat) (hE : E.OK n) (s : State K B C)
    (c : K × K) (radius : K) (act fix : List Nat)
    (h : getCircularScene E cfg s c = .ok (some (radius, act, fix))) :
    1 ≤ act.length ∧ act.length ≤ cfg.maxactive ∧ fix.length ≤ max 1 cfg.maxactive ∧
    (act ++ fix).Nodup ∧
    (∀ i ∈ act ++ fix, i < n ∧ E.dist c i ≤ cfg.boundaryRadius) ∧
    ((∃ i, i < n ∧ E.dist c i ≤ cfg.boundaryRadius ∧ i ∉ act) → 1 ≤ fix.length) := by
  obtain ⟨order, nA, H⟩ := getCircularScene_some E cfg s c n hE _ _ _ h
  refine ⟨List.length_pos_iff.2 H.act_ne, ?_, ?_, H.nodup hE,
    fun i hi => (hE.mem_ball _ _ _).1 (H.mem_ball i hi), ?_⟩
  · rw [H.act_eq, List.length_take, H.nAct_eq]; omega
  · rw [H.fix_eq]
    simp only
    split
    · rw [List.length_take]; omega
    · rw [List.length_take]; omega
  · rintro ⟨i, hi, hd, hna⟩
    have hmem : i ∈ order := by
      rw [H.perm.mem_iff, hE.mem_ball]; exact ⟨hi, hd⟩
    rw [← List.take_append_drop nA order, List.mem_append, ← H.act_eq] at hmem
    have hdrop : i ∈ order.drop nA := hmem.resolve_left hna
    rw [H.fix_eq]
    simp only
    split
    · rw [List.length_take]
      have := List.length_pos_of_mem hdrop
      omega
    · omega

/-- C09: the radius encloses the active sources, they are the ones of smallest outer extent and
the fixed set is complete unless the cap was reached. -/
theorem C09_radius (E : Env K) (cfg : Config K) (n : Nat) (hE : E.OK n) (s : State K B C)
    (c : K × K) (radius : K) (act fix : List Nat)
    (h : getCircularScene E cfg s c = .ok (some (radius, act, fix))) :
    let outer := fun i => E.dist c i + cfg.nscale * rhalfOf s i
    let inner := fun i => E.dist c i - cfg.nscale * rhalfOf s i
    cfg.minradius ≤ radius ∧ (∀ i ∈ act, outer i ≤ radius) ∧
    (radius = cfg.minradius ∨ ∃ i ∈ act, radius = outer i) ∧
    (∀ i ∈ act, outer i < cfg.maxradius) ∧
    (∀ i ∈ act, ∀ j, j < n → E.dist c j ≤ cfg.boundaryRadius → j ∉ act → outer i ≤ outer j) ∧
    (act.length < cfg.maxactive →
      ∀ j, j < n → E.dist c j ≤ cfg.boundaryRadius → outer j < cfg.maxradius → j ∈ act) ∧
    (fix.length < cfg.maxactive → ∀ j, j < n → E.dist c j ≤ cfg.boundaryRadius → j ∉ act →
      inner j < radius → j ∈ fix) ∧
    (∀ j ∈ fix, inner j < radius ∨ fix = [j]) := by
  intro outer inner
  obtain ⟨order, nA, H⟩ := getCircularScene_some E cfg s c n hE _ _ _ h
  have hcount : nA ≤ order.countP (fun i => decide (outer i < cfg.maxradius)) := by
    rw [H.perm.countP_eq, H.nAct_eq]; exact Nat.min_le_right _ _
  have hsplit : ∀ j, j < n → E.dist c j ≤ cfg.boundaryRadius → j ∈ act ∨ j ∈ order.drop nA := by
    intro j hj hd
    have hmem : j ∈ order := by rw [H.perm.mem_iff, hE.mem_ball]; exact ⟨hj, hd⟩
    rwa [← List.take_append_drop nA order, List.mem_append, ← H.act_eq] at hmem
  have hin : ∀ i ∈ act, outer i < cfg.maxradius := by
    intro i hi
    rw [H.act_eq] at hi
    exact sorted_prefix outer cfg.maxradius order H.sorted nA hcount i hi
  refine ⟨H.rad_min, H.rad_ge, H.rad_eq, hin, ?_, ?_, ?_, ?_⟩
  · intro i hi j hj hd hna
    have := (hsplit j hj hd).resolve_left hna
    rw [H.act_eq] at hi
    exact sorted_take_drop outer order H.sorted nA i hi j this
  · intro hlt j hj hd ho
    by_contra hna
    have hdrop := (hsplit j hj hd).resolve_left hna
    -- all of `nA` sources inside are already taken
    have hnA : nA = order.countP (fun i => decide (outer i < cfg.maxradius)) := by
      have h1 : act.length = min nA order.length := by rw [H.act_eq, List.length_take]
      have h2 := order.countP_le_length (p := fun i => decide (outer i < cfg.maxradius))
      have h3 : nA = min cfg.maxactive
          (order.countP (fun i => decide (outer i < cfg.maxradius))) := by
        rw [H.perm.countP_eq]; exact H.nAct_eq
      omega
    have h1 : order.countP (fun i => decide (outer i < cfg.maxradius)) =
        act.countP (fun i => decide (outer i < cfg.maxradius)) +
        (order.drop nA).countP (fun i => decide (outer i < cfg.maxradius)) := by
      rw [H.act_eq, ← List.countP_append, List.take_append_drop]
    have h2 : act.countP (fun i => decide (outer i < cfg.maxradius)) = act.length := by
      rw [List.countP_eq_length]; intro i hi; simpa using hin i hi
    have h3 : 0 < (order.drop nA).countP (fun i => decide (outer i < cfg.maxradius)) :=
      List.countP_pos_iff.2 ⟨j, hdrop, by simpa using ho⟩
    have h4 : act.length = min nA order.length := by rw [H.act_eq, List.length_take]
    have h5 := order.countP_le_length (p := fun i => decide (outer i < cfg.maxradius))
    omega
  · intro hlt j hj hd hna hinn
    have hdrop := (hsplit j hj hd).resolve_left hna
    have hf := H.fix_eq
    simp only at hf
    set F := (order.drop nA).filter
        (fun i => decide (E.dist c i - cfg.nscale * rhalfOf s i < radius)) with hF
    have hjF : j ∈ F := by
      rw [hF, List.mem_filter]; exact ⟨hdrop, by simpa using hinn⟩
    have hFle : F.length ≤ (order.drop nA).length := List.length_filter_le _ _
    have hpos := List.length_pos_of_mem hjF
    split at hf
    · rename_i h0
      rw [List.length_take] at h0
      have : cfg.maxactive = 0 := by omega
      omega
    · have hl : fix.length = min (min cfg.maxactive (order.drop nA).length) F.length := by
        rw [hf, List.length_take]
      have : F.length ≤ min cfg.maxactive (order.drop nA).length := by omega
      rw [hf, List.take_of_length_le this]
      exact hjF
  · intro j hj
    have hf := H.fix_eq
    simp only at hf
    split at hf
    · right
      rw [hf] at hj ⊢
      cases hd : order.drop nA with
      | nil => rw [hd] at hj; simp at hj
      | cons x t => rw [hd] at hj; simp at hj; simp [hj]
    · left
      rw [hf] at hj
      have := List.mem_of_mem_take hj
      rw [List.mem_filter] at this
      simpa using this.2

/-- A region with an active and a fixed source, and one with two active sources. -/
example : getCircularScene env3 cfg3 sys3.st (0, 0) = .ok (some (1, [0], [1])) ∧
    getCircularScene env3 cfg3 sys3.st (5, 0) = .ok (some (2, [2, 1], [])) := ⟨rfl, rfl⟩

/-- What `checkout_region` hands out: the current catalog rows of the sources chosen by
`get_circular_scene` with the flags of a checked-out source; the catalog keeps the same rows
and no other row changes. -/
theorem C08_checkout_rows (E : Env K) (cfg : Config K) (n : Nat) (hE : E.OK n)
    (s s' : State K B C) (hn : s.rows.length = n) (k : Nat) (c : K × K) (radius : K)
    (act fix : List (Row K))
    (h : checkout E cfg s k = (s', .region c radius act fix)) :
    ∃ ai fi, getCircularScene E cfg s c = .ok (some (radius, ai, fi)) ∧
      (∃ seed, s.rows[k]? = some seed ∧ c = (seed.par.ra, seed.par.dec)) ∧
      act.length = ai.length ∧ fix.length = fi.length ∧
      act.map some = ai.map (fun i => s'.rows[i]?) ∧ fix.map some = fi.map (fun i => s'.rows[i]?) ∧
      (∀ i ∈ ai, ∀ r : Row K, s.rows[i]? = some r →
        s'.rows[i]? = some { r with isActive := true, isValid := false }) ∧
      (∀ i ∈ fi, ∀ r : Row K, s.rows[i]? = some r → s'.rows[i]? = some { r with isValid := false }) ∧
      (∀ i, i ∉ ai → i ∉ fi → s'.rows[i]? = s.rows[i]?) ∧
      s'.bounds = s.bounds ∧ s'.covs = s.covs ∧ s'.patchlog = s.patchlog ∧
      s'.sourcelog = s.sourcelog ∧ s'.rows.length = s.rows.length := by
  rcases checkout_cases E cfg s k with ⟨e, h'⟩ | h' | ⟨seed, radius', ai, fi, hk, hg, h'⟩
  · rw [h'] at h; cases h
  · rw [h'] at h; cases h
  rw [h'] at h
  simp only [Prod.mk.injEq, Outcome.region.injEq] at h
  obtain ⟨hs, rfl, rfl, ha, hf⟩ := h
  obtain ⟨order, nA, H⟩ := getCircularScene_some E cfg s _ n hE _ _ _ hg
  have hnd := H.nodup hE
  have hlt : ∀ i ∈ ai ++ fi, i < n := fun i hi => ((hE.mem_ball _ _ _).1 (H.mem_ball i hi)).1
  have hget := rows3_getElem? s.rows ai fi
  have hrow : ∀ i, s'.rows[i]? = (s.rows[i]?).map fun r : Row K =>
      { r with isActive := if i ∈ ai then true else r.isActive,
               isValid := if i ∈ ai ∨ i ∈ fi then false else r.isValid } := by
    intro i; rw [← hs]; exact hget i
  have htake : ∀ l : List Nat, (∀ i ∈ l, i < n) →
      (takeRows s'.rows l).map some = l.map fun i => s'.rows[i]? := by
    intro l hl
    refine takeRows_map s'.rows l some _ ?_
    intro i hi
    have : i < s'.rows.length := by rw [← hs]; simpa [hn] using hl i hi
    exact ⟨_, List.getElem?_eq_getElem this, (List.getElem?_eq_getElem this).symm⟩
  have hsr : s'.rows = updAt (updAt (updAt s.rows ai fun r => { r with isActive := true })
            ai fun r => { r with isValid := false }) fi fun r => { r with isValid := false } := by
    rw [← hs]
  have hA : act.map some = ai.map (fun i => s'.rows[i]?) := by
    rw [← ha, ← hsr]; exact htake ai fun i hi => hlt i (List.mem_append_left _ hi)
  have hF : fix.map some = fi.map (fun i => s'.rows[i]?) := by
    rw [← hf, ← hsr]; exact htake fi fun i hi => hlt i (List.mem_append_right _ hi)
  refine ⟨ai, fi, hg, ⟨seed, hk, rfl⟩, ?_, ?_, hA, hF, ?_, ?_, ?_, ?_⟩
  · simpa using congrArg List.length hA
  · simpa using congrArg List.length hF
  · intro i hi r hr
    rw [hrow, hr]; simp [hi]
  · intro i hi r hr
    have hna : i ∉ ai := fun h => (List.nodup_append.1 hnd).2.2 i h i hi rfl
    rw [hrow, hr]; simp [hi, hna]
  · intro i h1 h2
    rw [hrow]
    cases hc : s.rows[i]? with
    | none => rfl
    | some r => simp [h1, h2]
  · rw [← hs]; simp

/-! ## C10 -/

/-- C10: exactly when a checkout around `c` raises, is refused, or succeeds. -/
theorem C10_when (E : Env K) (cfg : Config K) (n : Nat) (hE : E.OK n) (s : State K B C)
    (c : K × K) :
    let outer := fun i => E.dist c i + cfg.nscale * rhalfOf s i
    let cand := fun i => i < n ∧ E.dist c i ≤ cfg.boundaryRadius
    (getCircularScene E cfg s c = .error .indexError ↔ ¬ ∃ i, cand i) ∧
    (getCircularScene E cfg s c = .ok none ↔ ∃ i, cand i ∧ activeOf s i = true) ∧
    (getCircularScene E cfg s c = .error .valueError ↔
      (∃ i, cand i) ∧ (∀ i, cand i → activeOf s i = false) ∧
      (cfg.maxactive = 0 ∨ ∀ i, cand i → ¬ outer i < cfg.maxradius)) ∧
    ((∃ r a f, getCircularScene E cfg s c = .ok (some (r, a, f))) ↔
      (∀ i, cand i → activeOf s i = false) ∧ 1 ≤ cfg.maxactive ∧
      ∃ i, cand i ∧ outer i < cfg.maxradius) := by
  intro outer cand
  have hcand : ∀ i, i ∈ E.ball c cfg.boundaryRadius ↔ cand i := fun i => hE.mem_ball _ _ _
  by_cases h0 : E.ball c cfg.boundaryRadius = []
  · have hno : ¬ ∃ i, cand i := by
      rintro ⟨i, hi⟩; rw [← hcand, h0] at hi; simp at hi
    have hv : getCircularScene E cfg s c = .error .indexError := by
      simp [getCircularScene, h0]
    rw [hv]
    refine ⟨by simp [hno], ?_, ?_, ?_⟩
    · constructor
      · intro h; cases h
      · rintro ⟨i, hi, _⟩; exact absurd ⟨i, hi⟩ hno
    · constructor
      · intro h; cases h
      · rintro ⟨h, _⟩; exact absurd h hno
    · constructor
      · rintro ⟨_, _, _, h⟩; cases h
      · rintro ⟨_, _, i, hi, _⟩; exact absurd ⟨i, hi⟩ hno
  have hyes : ∃ i, cand i := by
    obtain ⟨i, t, hi⟩ := List.exists_cons_of_ne_nil h0
    exact ⟨i, (hcand i).1 (by simp [hi])⟩
  by_cases h1 : (E.ball c cfg.boundaryRadius).any (activeOf s) = true
  · have hv : getCircularScene E cfg s c = .ok none := by
      simp only [getCircularScene, h0, h1, if_true, if_false]
    obtain ⟨i, hi, ha⟩ := List.any_eq_true.1 h1
    rw [hcand] at hi
    have hna : ¬ ∀ i, cand i → activeOf s i = false := by
      intro h; rw [h i hi] at ha; cases ha
    rw [hv]
    refine ⟨?_, ?_, ?_, ?_⟩
    · constructor
      · intro h; cases h
      · intro h; exact absurd hyes h
    · exact ⟨fun _ => ⟨i, hi, ha⟩, fun _ => rfl⟩
    · constructor
      · intro h; cases h
      · rintro ⟨_, h, _⟩; exact absurd h hna
    · constructor
      · rintro ⟨_, _, _, h⟩; cases h
      · rintro ⟨h, _⟩; exact absurd h hna
  have h1f : (E.ball c cfg.boundaryRadius).any (activeOf s) = false := by simpa using h1
  have hall : ∀ i, cand i → activeOf s i = false := by
    intro i hi
    rw [← hcand] at hi
    simp only [List.any_eq_true, not_exists, not_and, Bool.not_eq_true] at h1
    exact h1 i hi
  have hnex : ¬ ∃ i, cand i ∧ activeOf s i = true := by
    rintro ⟨i, hi, ha⟩; rw [hall i hi] at ha; cases ha
  -- number of active sources
  set order := E.argsortBy outer (E.ball c cfg.boundaryRadius) with hord
  set nA := min cfg.maxactive ((E.ball c cfg.boundaryRadius).countP
    (fun i => decide (outer i < cfg.maxradius))) with hnA
  have hperm : order.Perm (E.ball c cfg.boundaryRadius) := hE.argsort_perm _ _
  have hlen : 0 < order.length := by
    rw [hperm.length_eq]; exact List.length_pos_iff.2 h0
  have hpos : 0 < nA ↔ 1 ≤ cfg.maxactive ∧ ∃ i, cand i ∧ outer i < cfg.maxradius := by
    rw [hnA, Nat.lt_min, List.countP_pos_iff]
    constructor
    · rintro ⟨h, i, hi, ho⟩; exact ⟨h, i, (hcand i).1 hi, by simpa using ho⟩
    · rintro ⟨h, i, hi, ho⟩; exact ⟨h, i, (hcand i).2 hi, by simpa using ho⟩
  by_cases hz : 0 < nA
  · have hv : ∃ r a f, getCircularScene E cfg s c = .ok (some (r, a, f)) := by
      simp only [getCircularScene, h0, h1f, if_false, Bool.false_eq_true]
      split
      · rename_i hm
        have : (order.take nA).length = 0 := by
          have := congrArg List.length hm
          simpa only [List.length_map, List.length_nil] using this
        rw [List.length_take] at this
        omega
      · exact ⟨_, _, _, rfl⟩
    obtain ⟨r, a, f, hv⟩ := hv
    rw [hv]
    obtain ⟨hm, hi⟩ := hpos.1 hz
    refine ⟨?_, ?_, ?_, ?_⟩
    · constructor
      · intro h; cases h
      · intro h; exact absurd hyes h
    · constructor
      · intro h; cases h
      · intro h; exact absurd h hnex
    · constructor
      · intro h; cases h
      · rintro ⟨_, _, h⟩
        rcases h with h | h
        · omega
        · obtain ⟨i, hi, ho⟩ := hi; exact absurd ho (h i hi)
    · exact ⟨fun _ => ⟨hall, hm, hi⟩, fun _ => ⟨_, _, _, rfl⟩⟩
  · have hz0 : nA = 0 := by omega
    have hv : getCircularScene E cfg s c = .error .valueError := by
      simp only [getCircularScene, h0, h1f, if_false, Bool.false_eq_true]
      have hx : List.map outer (order.take nA) = [] := by rw [hz0]; simp
      rw [show List.map (fun i => E.dist c i + cfg.nscale * rhalfOf s i)
        (List.take (min cfg.maxactive ((E.ball c cfg.boundaryRadius).countP
          (fun i => decide (E.dist c i + cfg.nscale * rhalfOf s i < cfg.maxradius))))
          (E.argsortBy (fun i => E.dist c i + cfg.nscale * rhalfOf s i)
            (E.ball c cfg.boundaryRadius))) = [] from hx]
    rw [hv]
    have hneg : ¬ (1 ≤ cfg.maxactive ∧ ∃ i, cand i ∧ outer i < cfg.maxradius) :=
      fun h => hz (hpos.2 h)
    refine ⟨?_, ?_, ?_, ?_⟩
    · constructor
      · intro h; cases h
      · intro h; exact absurd hyes h
    · constructor
      · intro h; cases h
      · intro h; exact absurd h hnex
    · refine ⟨fun _ => ⟨hyes, hall, ?_⟩, fun _ => rfl⟩
      by_cases hm : cfg.maxactive = 0
      · exact Or.inl hm
      · right
        intro i hi ho
        exact hneg ⟨by omega, i, hi, ho⟩
    · constructor
      · rintro ⟨_, _, _, h⟩; cases h
      · rintro ⟨_, h⟩; exact absurd h hneg

/-- All four outcomes occur. -/
example : getCircularScene env3 cfg3 sys3.st (100, 0) = .error .indexError ∧
    getCircularScene env3 cfg3 (run env3 cfg3 sys3 (ops3.take 1)).1.st (3, 0) = .ok none ∧
    getCircularScene env3 { cfg3 with maxradius := 0 } sys3.st (0, 0) = .error .valueError ∧
    getCircularScene env3 cfg3 sys3.st (0, 0) = .ok (some (1, [0], [1])) :=
  ⟨rfl, rfl, rfl, rfl⟩

/-! ## C11 -/

omit [CommRing K] [LinearOrder K] in
/-- C11, soundness: done means every source has its target number of iterations. -/
theorem C11_done_iff (cfg : Config K) (s : State K B C) :
    undone cfg s = false ↔ ∀ r ∈ s.rows, cfg.targetNiter ≤ |r.nIter| := by
  simp [undone, List.any_eq_false]

/-- All check-ins of the history report a non-negative number of iterations. -/
def NonnegOps (ops : List (Op K B C)) : Prop :=
  ∀ op ∈ ops, ∀ j p niter bc nb tid, op = .checkin j p niter bc nb tid → 0 ≤ niter

omit [CommRing K] [LinearOrder K] in
theorem NonnegOps.cons {op : Op K B C} {ops : List (Op K B C)} (h : NonnegOps (op :: ops)) :
    (∀ j p niter bc nb tid, op = .checkin j p niter bc nb tid → 0 ≤ niter) ∧ NonnegOps ops :=
  ⟨h op (by simp), fun o ho => h o (by simp [ho])⟩

theorem events_nonneg {n : Nat} (E : Env K) (cfg : Config K) (hE : E.OK n)
    (ops : List (Op K B C)) (h : NonnegOps ops)
    (y : Sys K B C) (H : SInv n y) : ∀ e ∈ (run E cfg y ops).2, 0 ≤ e.niter := by
  induction ops generalizing y with
  | nil => simp [run]
  | cons op t ih =>
    intro e he
    simp only [run, List.mem_append] at he
    rcases he with he | he
    · cases op with
      | checkout k =>
        rcases checkout_cases E cfg y.st k with ⟨e', h'⟩ | h' | ⟨_, _, _, _, _, _, h'⟩ <;>
          simp [step, h'] at he
      | checkin j p niter bc nb tid =>
        rcases step_checkin_cases (E := E) (cfg := cfg) y H j p niter bc nb tid with
          h' | ⟨h', hj, hp, hb, s', hs, hst⟩
        · simp [h'] at he
        · rw [hst] at he
          simp only [Option.toList_some, List.mem_singleton] at he
          subst he
          exact h.cons.1 j p niter bc nb tid rfl
    · exact ih h.cons.2 _ (inv_step hE y H op) e he

theorem evIter_nonneg (es : List Event) (h : ∀ e ∈ es, 0 ≤ e.niter) (i : Nat) :
    0 ≤ evIter es i := by
  apply List.sum_nonneg
  intro x hx
  obtain ⟨e, he, rfl⟩ := List.mem_map.1 hx
  exact h e (List.mem_of_mem_filter he)

/-- C11, stability: once done, done for ever. -/
theorem C11_stable (E : Env K) (cfg : Config K) (cat : List (Row K)) (hE : E.OK cat.length)
    (bounds : List B) (one : C) (hcat : ∀ r ∈ cat, 0 ≤ r.nIter)
    (ops1 ops2 : List (Op K B C)) (h1 : NonnegOps ops1) (h2 : NonnegOps ops2)
    (hdone : undone cfg (run E cfg (fresh cat bounds one) ops1).1.st = false) :
    undone cfg (run E cfg (run E cfg (fresh cat bounds one) ops1).1 ops2).1.st = false := by
  have H0 := inv_fresh cat bounds one
  set y0 := fresh cat bounds one with hy0
  set y := (run E cfg y0 ops1).1 with hy
  have H : SInv cat.length y := inv_run hE ops1 _ H0
  have H2 : SInv cat.length (run E cfg y ops2).1 := inv_run hE ops2 _ H
  rw [C11_done_iff] at hdone ⊢
  intro r' hr'
  obtain ⟨i, hi, rfl⟩ := List.mem_iff_getElem.1 hr'
  have hi0 : i < cat.length := by rw [← H2.len]; exact hi
  have hi1 : i < y.st.rows.length := by rw [H.len]; exact hi0
  have hi00 : i < y0.st.rows.length := by rw [H0.len]; exact hi0
  obtain ⟨r1, a1, _, a3, _⟩ := run_counters (cfg := cfg) hE ops1 y0 H0 i _
    (List.getElem?_eq_getElem hi00)
  obtain ⟨r2, b1, _, b3, _⟩ := run_counters (cfg := cfg) hE ops2 y H i _
    (List.getElem?_eq_getElem hi1)
  rw [← hy, List.getElem?_eq_getElem hi1, Option.some.injEq] at a1
  rw [List.getElem?_eq_getElem hi, Option.some.injEq] at b1
  have n1 := evIter_nonneg _ (events_nonneg E cfg hE ops1 h1 y0 H0) i
  have n2 := evIter_nonneg _ (events_nonneg E cfg hE ops2 h2 y H) i
  have hc : 0 ≤ (y0.st.rows[i]).nIter := by
    simp only [hy0, fresh, ingest, List.getElem_mapIdx]
    exact hcat _ (List.getElem_mem _)
  have hd := hdone _ (List.getElem_mem hi1)
  rw [b1, b3]
  rw [a1] at hd ⊢
  rw [abs_of_nonneg (by omega)] at hd
  rw [abs_of_nonneg (by omega)]
  omega

/-- A history that becomes done. -/
example : undone { cfg3 with targetNiter := 5 } (run env3 cfg3 (fresh [mkRow 0 0] [0] 1 : Sys Int Nat Nat)
      [.checkout 0]).1.st = true ∧
    undone { cfg3 with targetNiter := 5 } (run (lineEnv [0]) cfg3
      (fresh [mkRow 0 0] [0] 1 : Sys Int Nat Nat)
      [.checkout 0, .checkin 0 [(mkRow 0 0).par] 5 none none none]).1.st = false := by
  decide +kernel

/-! ## C12 -/

omit [CommRing K] [LinearOrder K] in
/-- C12: what a reset does. -/
theorem C12_reset (s : State K B C) :
    (reset s).rows.length = s.rows.length ∧
    (∀ (i : Nat) (r : Row K), s.rows[i]? = some r → ∃ r', (reset s).rows[i]? = some r' ∧ r'.isActive = false ∧
      r'.isValid = true ∧ r'.nIter = 0 ∧ r'.nPatch = 0 ∧ r'.par = r.par ∧ r'.id = r.id ∧
      r'.sourceIndex = r.sourceIndex) ∧
    (reset s).nActive = 0 ∧ (reset s).nFixed = 0 ∧ (reset s).bounds = s.bounds ∧
    (reset s).covs = s.covs ∧ (reset s).patchlog = s.patchlog ∧
    (reset s).sourcelog = s.sourcelog := by
  refine ⟨by simp [reset], ?_, rfl, rfl, rfl, rfl, rfl, rfl⟩
  intro i r hr
  exact ⟨{ r with isValid := true, isActive := false, nIter := 0, nPatch := 0 },
    by simp [reset, hr], rfl, rfl, rfl, rfl, rfl, rfl, rfl⟩

/-- C12, mid-flight: in any reachable state, if a reset happens while a region is outstanding
then the later check-in of that region returns normally and leaves the active count at minus
the number of its active sources. -/
theorem C12_reset_midflight (E : Env K) (cfg : Config K) (cat : List (Row K))
    (hE : E.OK cat.length) (bounds : List B) (one : C) (ops : List (Op K B C))
    (h : Held K) (hh : h ∈ (run E cfg (fresh cat bounds one) ops).1.out)
    (pars : List (Params K)) (hp : pars.length = h.active.length) (niter : Int)
    (bc : Option (List C)) (tid : Option String) :
    let s := (run E cfg (fresh cat bounds one) ops).1.st
    (checkin (reset s) (heldArgs h pars niter bc none tid)).2 = none ∧
    (checkin (reset s) (heldArgs h pars niter bc none tid)).1.nActive = -(h.active.length : Int) ∧
    (checkin (reset s) (heldArgs h pars niter bc none tid)).1.nFixed = -(h.fixed.length : Int) := by
  intro s
  have H : SInv cat.length (run E cfg (fresh cat bounds one) ops).1 :=
    inv_run hE ops _ (inv_fresh cat bounds one)
  obtain ⟨j, hj⟩ := List.mem_iff_getElem?.1 hh
  obtain ⟨c1, c2, c3, c4, c5, c6⟩ := checkin_held (C := C) (B := B) _ H j h hj pars niter bc none tid hp
    (by simp)
  have hl : (reset s).rows.length = s.rows.length := by simp [reset]
  obtain ⟨s', hs, _, _, hna, hnf, _⟩ := checkin_ok (reset s) (heldArgs h pars niter bc none tid)
    (by rw [c1, hl]; exact c3) (by rw [c2, hl]; exact c4) (by rw [c1]; exact c5) c6
  rw [hs]
  refine ⟨rfl, ?_, ?_⟩
  · simp only; rw [hna, c1]; simp [reset, Held.actIdx]
  · simp only; rw [hnf, c2]; simp [reset, Held.fixIdx]

example : ((run env3 cfg3 sys3 (ops3.take 1)).1.out.map fun h => h.active.length) = [1] := by
  decide +kernel

end Forcepho.SuperScene
