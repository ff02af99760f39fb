import Verif.Linked.Props

/-!
# Property C105: which sources a linked region takes first

`LinkedSuperScene.grow_scene` (superscene.py:567-626) and `find_overlaps` (677-711): the
candidates are taken in increasing order of the overlap metric, the seed is among them, and the
fixed sources are the ones with the smallest metric.
-/

set_option autoImplicit false
set_option linter.unusedSectionVars false

namespace Forcepho.Linked

open Forcepho.SuperScene

/-! ## Specification -/

section Spec
variable {K P : Type} [Field K] [LinearOrder K]

/-- Separation in units of the sum of the two radii of influence. -/
def sepMetric (dist : Nat → K) (r : K) (roi : Nat → K) (i : Nat) : K := dist i / (r + roi i)

/-- Source `i < n` lies within reach `r + R` of the point and its disc meets the disc of radius
`r` there. -/
def Touches (dist : Nat → K) (r R : K) (roi : Nat → K) (n i : Nat) : Prop :=
  i < n ∧ dist i ≤ r + R ∧ dist i < r + roi i

end Spec

section
variable {K B C P : Type} [Field K] [LinearOrder K]

theorem findOverlaps_sorted {E : Env P K} {n : Nat} (hE : E.OK n) (cfg : Config K)
    (s : State K B C) (c : P) (r : K) (seed : Option Nat) :
    (findOverlaps E cfg s c r seed true).Pairwise fun i j =>
      sepMetric (E.dist c) r (roiOf cfg s) i ≤ sepMetric (E.dist c) r (roiOf cfg s) j := by
  unfold findOverlaps
  simp only [if_true]
  exact hE.argsort_sorted _ _

theorem mem_findOverlaps_touches [IsStrictOrderedRing K] {E : Env P K} {n : Nat} (hE : E.OK n)
    (cfg : Config K) (s : State K B C) (c : P) (r : K) (sort : Bool) (i : Nat)
    (hd : 0 ≤ E.dist c i) (hr : 0 < r + roiOf cfg s i) :
    i ∈ findOverlaps E cfg s c r none sort ↔
      Touches (E.dist c) r cfg.boundaryRadius (roiOf cfg s) n i := by
  rw [mem_findOverlaps hE, overlapTest_pos hd hr]
  simp [Touches]

/-- The filling loop takes the candidates in the order given: every candidate is taken unless
the loop stopped, and then all candidates before the one that did not fit are taken, and
everything taken belongs to the group of a candidate up to that one. -/
theorem fillActive_order {adj : Nat → List Nat} {n fuel maxactive : Nat} {strict : Bool}
    (hadj : ∀ i, (adj i).Nodup) (hlt : ∀ i, ∀ j ∈ adj i, j < n) (hf : n < fuel) :
    ∀ (cands act res : List Nat), (∀ c ∈ cands, c < n) → act.length ≤ maxactive →
      fillActive (growSource adj fuel) maxactive strict cands act = some res →
      act ⊆ res ∧
      ((∀ c ∈ cands, c ∈ res) ∧ (∀ x ∈ res, x ∈ act ∨ ∃ c ∈ cands, Conn adj c x) ∨
       ∃ pre c post, cands = pre ++ c :: post ∧ (∀ x ∈ pre, x ∈ res) ∧
        (∀ x ∈ res, x ∈ act ∨ ∃ d ∈ pre ++ [c], Conn adj d x) ∧
        (res.length = maxactive ∨ strict = true) ∧
        (act = [] → pre = [] → 0 < maxactive → c ∈ res)) := by
  intro cands
  induction cands with
  | nil =>
    intro act res _ _ h
    simp only [fillActive, Option.some.injEq] at h
    subst h
    exact ⟨fun x hx => hx, Or.inl ⟨by simp, fun x hx => Or.inl hx⟩⟩
  | cons c t ih =>
    intro act res hc hal h
    have hct : ∀ x ∈ t, x < n := fun x hx => hc x (List.mem_cons_of_mem _ hx)
    rw [fillActive] at h
    split at h
    · rename_i hin
      obtain ⟨h1, h2⟩ := ih act res hct hal h
      refine ⟨h1, ?_⟩
      rcases h2 with ⟨h2, h3⟩ | ⟨pre, d, post, e, h3, h4, h5, h6⟩
      · refine Or.inl ⟨?_, ?_⟩
        · intro x hx
          rcases List.mem_cons.1 hx with rfl | hx
          · exact h1 hin
          · exact h2 x hx
        · intro x hx
          rcases h3 x hx with h | ⟨d, hd, h⟩
          · exact Or.inl h
          · exact Or.inr ⟨d, List.mem_cons_of_mem _ hd, h⟩
      · refine Or.inr ⟨c :: pre, d, post, by rw [e]; rfl, ?_, ?_, h5, ?_⟩
        · intro x hx
          rcases List.mem_cons.1 hx with rfl | hx
          · exact h1 hin
          · exact h3 x hx
        · intro x hx
          rcases h4 x hx with h | ⟨d', hd, h⟩
          · exact Or.inl h
          · exact Or.inr ⟨d', List.mem_cons_of_mem _ hd, h⟩
        · intro ha; subst ha; simp at hin
    · obtain ⟨g, hg, hgn, hgl, hgm⟩ := growSource_spec hadj hlt (hc c (by simp)) hf
      obtain ⟨tl, htl⟩ := growLoop_head fuel [] [c] g hg
      simp only [hg] at h
      split at h
      · rename_i hbig
        have key : act ⊆ res ∧ (∀ x ∈ res, x ∈ act ∨ x ∈ g) ∧
            (res.length = maxactive ∨ strict = true) ∧
            (act = [] → 0 < maxactive → c ∈ res) := by
          split at h
          · rename_i hs
            obtain rfl := Option.some.inj h
            refine ⟨List.subset_append_left _ _, ?_, ?_, ?_⟩
            · intro x hx
              rcases List.mem_append.1 hx with h | h
              · exact Or.inl h
              · exact Or.inr (List.mem_of_mem_take h)
            · rw [List.length_append, List.length_take]
              omega
            · rintro rfl hm
              rw [htl]
              obtain ⟨k, rfl⟩ : ∃ k, maxactive = k + 1 := ⟨maxactive - 1, by omega⟩
              simp
          · rename_i hs
            obtain rfl := Option.some.inj h
            refine ⟨fun x hx => hx, fun x hx => Or.inl hx, ?_, ?_⟩
            · right
              cases strict
              · exact absurd (Or.inl rfl) hs
              · rfl
            · rintro rfl _
              exact absurd (Or.inr rfl) hs
        obtain ⟨k1, k2, k3, k4⟩ := key
        refine ⟨k1, Or.inr ⟨[], c, t, rfl, by simp, ?_, k3, fun ha _ hm => k4 ha hm⟩⟩
        intro x hx
        rcases k2 x hx with h | h
        · exact Or.inl h
        · exact Or.inr ⟨c, by simp, (hgm x).1 h⟩
      · rename_i hfit
        obtain ⟨h1, h2⟩ := ih _ res hct (by rw [List.length_append]; omega) h
        have hcr : c ∈ res := h1 (List.mem_append.2 (Or.inr (by rw [htl]; simp)))
        refine ⟨fun x hx => h1 (List.mem_append_left _ hx), ?_⟩
        rcases h2 with ⟨h2, h3⟩ | ⟨pre, d, post, e, h3, h4, h5, h6⟩
        · refine Or.inl ⟨?_, ?_⟩
          · intro x hx
            rcases List.mem_cons.1 hx with rfl | hx
            · exact hcr
            · exact h2 x hx
          · intro x hx
            rcases h3 x hx with h | ⟨d, hd, h⟩
            · rcases List.mem_append.1 h with h | h
              · exact Or.inl h
              · exact Or.inr ⟨c, by simp, (hgm x).1 h⟩
            · exact Or.inr ⟨d, List.mem_cons_of_mem _ hd, h⟩
        · refine Or.inr ⟨c :: pre, d, post, by rw [e]; rfl, ?_, ?_, ?_, ?_⟩
          · intro x hx
            rcases List.mem_cons.1 hx with rfl | hx
            · exact hcr
            · exact h3 x hx
          · intro x hx
            rcases h4 x hx with h | ⟨d', hd, h⟩
            · rcases List.mem_append.1 h with h | h
              · exact Or.inl h
              · exact Or.inr ⟨c, by simp, (hgm x).1 h⟩
            · exact Or.inr ⟨d', List.mem_cons_of_mem _ hd, h⟩
          · exact h5
          · intro _ hp; cases hp


/-! ## C105 -/

/-- C105: the active sources are taken in increasing order of the separation metric from the
seed.  Either every source touching the seed's boundary is active, or the filling stopped at some
touching source `c` and every touching source with a smaller metric is active; each active source
is linked by a chain of overlaps to a touching source with metric at most that of `c`; and without
strict filling the active set is then full. -/
theorem C105_order [IsStrictOrderedRing K] (E : Env P K) (cfg : Config K) (s : State K B C)
    (hE : E.OK s.rows.length) (seed : Nat) (mf : Option Nat) (radius : K) (act fix : List Nat)
    (hd : ∀ p i, 0 ≤ E.dist p i) (hR : ∀ i, 0 < cfg.boundaryRadius + roiOf cfg s i)
    (h : growScene E cfg s seed mf = .ok (some (radius, act, fix))) :
    let T := Touches (E.dist (E.coord seed)) cfg.boundaryRadius cfg.boundaryRadius (roiOf cfg s)
      s.rows.length
    let m := sepMetric (E.dist (E.coord seed)) cfg.boundaryRadius (roiOf cfg s)
    (∀ i, T i → i ∈ act) ∧ (∀ x ∈ act, ∃ i, T i ∧ Conn (adjOf E cfg s) i x) ∨
    ∃ c, T c ∧ (∀ i, T i → m i < m c → i ∈ act) ∧
      (∀ x ∈ act, ∃ i, T i ∧ m i ≤ m c ∧ Conn (adjOf E cfg s) i x) ∧
      (cfg.strict = false → act.length = cfg.maxactive) := by
  intro T m
  obtain ⟨_, h2, _, _, _, _⟩ := growScene_some h
  have hmem : ∀ i, i ∈ findOverlaps E cfg s (E.coord seed) cfg.boundaryRadius none true ↔ T i :=
    fun i => mem_findOverlaps_touches hE cfg s _ _ _ i (hd _ _) (hR i)
  have hsort := findOverlaps_sorted hE cfg s (E.coord seed) cfg.boundaryRadius none
  have hlt : ∀ c ∈ findOverlaps E cfg s (E.coord seed) cfg.boundaryRadius none true,
      c < s.rows.length := fun c hc => ((hmem c).1 hc).1
  obtain ⟨_, h3⟩ := fillActive_order (adjOf_nodup hE cfg s) (adjOf_lt hE cfg s)
    (Nat.lt_succ_self _) _ _ _ hlt (Nat.zero_le _) h2
  rcases h3 with ⟨h3, h4⟩ | ⟨pre, c, post, e, h3, h4, h5, _⟩
  · refine Or.inl ⟨fun i hi => h3 i ((hmem i).2 hi), ?_⟩
    intro x hx
    rcases h4 x hx with h | ⟨c, hc, hl⟩
    · simp at h
    · exact ⟨c, (hmem c).1 hc, hl⟩
  · rw [e] at hsort hmem
    rw [List.pairwise_append] at hsort
    obtain ⟨_, s2, s3⟩ := hsort
    rw [List.pairwise_cons] at s2
    refine Or.inr ⟨c, (hmem c).1 (by simp), ?_, ?_, ?_⟩
    · intro i hi hlt'
      rcases List.mem_append.1 ((hmem i).2 hi) with h | h
      · exact h3 i h
      · rcases List.mem_cons.1 h with rfl | h
        · exact absurd hlt' (lt_irrefl _)
        · exact absurd hlt' (not_lt.2 (s2.1 i h))
    · intro x hx
      rcases h4 x hx with h | ⟨d, hd', hl⟩
      · simp at h
      · rcases List.mem_append.1 hd' with h | h
        · exact ⟨d, (hmem d).1 (by simp [h]), s3 d h c (by simp), hl⟩
        · simp only [List.mem_singleton] at h
          subst h
          exact ⟨d, (hmem d).1 (by simp), le_refl _, hl⟩
    · intro hs
      rcases h5 with h | h
      · exact h
      · rw [hs] at h; cases h

/-- C105: the fixed sources are, in order, those with the smallest separation metric from the
region's centre among the sources touching the region enlarged by 1.2 that are not active; a
source is left out only when the allowed number is used up by sources at most as far in the
metric. -/
theorem C105_fixed [IsStrictOrderedRing K] (E : Env P K) (cfg : Config K) (s : State K B C)
    (hE : E.OK s.rows.length) (seed : Nat) (mf : Option Nat) (radius : K) (act fix : List Nat)
    (hd : ∀ p i, 0 ≤ E.dist p i) (hR : ∀ i, 0 < 6 / 5 * radius + roiOf cfg s i)
    (h : growScene E cfg s seed mf = .ok (some (radius, act, fix))) :
    let c := E.meanCenter (takeRows s.rows act)
    let T := Touches (E.dist c) (6 / 5 * radius) cfg.boundaryRadius (roiOf cfg s) s.rows.length
    let m := sepMetric (E.dist c) (6 / 5 * radius) (roiOf cfg s)
    fix.Pairwise (fun i j => m i ≤ m j) ∧ (∀ i ∈ fix, T i) ∧
    ∀ j, T j → j ∉ act → j ∈ fix ∨
      fix.length = mf.getD cfg.maxactive ∧ ∀ i ∈ fix, m i ≤ m j := by
  intro c T m
  obtain ⟨_, _, _, _, _, h6⟩ := growScene_some h
  have hmem : ∀ i, i ∈ findOverlaps E cfg s c (6 / 5 * radius) none true ↔ T i :=
    fun i => mem_findOverlaps_touches hE cfg s _ _ _ i (hd _ _) (hR i)
  have hsort : ((findOverlaps E cfg s c (6 / 5 * radius) none true).filter
      fun i => decide (i ∉ act)).Pairwise fun i j => m i ≤ m j :=
    (findOverlaps_sorted hE cfg s c (6 / 5 * radius) none).filter _
  refine ⟨?_, ?_, ?_⟩
  · rw [h6]; exact hsort.sublist (List.take_sublist _ _)
  · intro i hi
    rw [h6] at hi
    exact (hmem i).1 (List.mem_filter.1 (List.mem_of_mem_take hi)).1
  · intro j hj hja
    have hjm : j ∈ (findOverlaps E cfg s c (6 / 5 * radius) none true).filter
        fun i => decide (i ∉ act) := List.mem_filter.2 ⟨(hmem j).2 hj, by simpa using hja⟩
    rw [h6]
    generalize (findOverlaps E cfg s c (6 / 5 * radius) none true).filter
        (fun i => decide (i ∉ act)) = L at hjm hsort
    rw [← List.take_append_drop (mf.getD cfg.maxactive) L, List.mem_append] at hjm
    rcases hjm with hjm | hjm
    · exact Or.inl hjm
    · refine Or.inr ⟨?_, ?_⟩
      · have : 0 < (L.drop (mf.getD cfg.maxactive)).length := List.length_pos_of_mem hjm
        rw [List.length_drop] at this
        rw [List.length_take]; omega
      · intro i hi
        rw [← List.take_append_drop (mf.getD cfg.maxactive) L, List.pairwise_append] at hsort
        exact hsort.2.2 i hi j hjm

/-- C105 for the seed: when a checkout from `seed` succeeds and no other source lies at exactly
the same place, the seed itself is among the active rows handed out and is flagged active.
Missing from the full claim: other sources at the same place. -/
theorem C105_seed_partial [IsStrictOrderedRing K] (E : Env P K) (cfg : Config K)
    (s : State K B C) (hE : E.OK s.rows.length) (seed : Nat) (mf : Option Nat)
    (actRows : List (Row K)) (fixRows : Option (List (Row K)))
    (hR : ∀ i, 0 < cfg.boundaryRadius + roiOf cfg s i) (hb : 0 ≤ cfg.boundaryRadius)
    (hd : ∀ p i, 0 ≤ E.dist p i) (h0 : E.dist (E.coord seed) seed = 0)
    (hne : ∀ i, i < s.rows.length → i ≠ seed → 0 < E.dist (E.coord seed) i)
    (h : (checkout E cfg s seed mf).2 = .ok (some (actRows, fixRows))) :
    ∃ r, (checkout E cfg s seed mf).1.rows[seed]? = some r ∧ r.isActive = true ∧ r ∈ actRows := by
  unfold checkout at h ⊢
  split at h
  · cases h
  rename_i hlt
  rw [if_neg hlt]
  push Not at hlt
  cases hg : growScene E cfg s seed mf with
  | error e => rw [hg] at h; cases h
  | ok o =>
    cases o with
    | none => rw [hg] at h; cases h
    | some x =>
      obtain ⟨radius, act, fix⟩ := x
      rw [hg] at h
      simp only [Except.ok.injEq, Option.some.injEq, Prod.mk.injEq] at h
      obtain ⟨ha, _⟩ := h
      have hin : seed ∈ act := by
        have hord := C105_order E cfg s hE seed mf radius act fix hd hR hg
        obtain ⟨_, h2, h3, _, _, _⟩ := growScene_some hg
        have hTs : Touches (E.dist (E.coord seed)) cfg.boundaryRadius cfg.boundaryRadius
            (roiOf cfg s) s.rows.length seed :=
          ⟨hlt, by rw [h0]; exact add_nonneg hb hb, by rw [h0]; exact hR seed⟩
        have hm0 : sepMetric (E.dist (E.coord seed)) cfg.boundaryRadius (roiOf cfg s) seed = 0 := by
          simp [sepMetric, h0]
        rcases hord with ⟨h4, _⟩ | ⟨c, hc, h4, _, _⟩
        · exact h4 seed hTs
        · by_cases hcs : c = seed
          · subst hcs
            have hmem := fun i => mem_findOverlaps_touches hE cfg s (E.coord c)
              cfg.boundaryRadius true i (hd _ _) (hR i)
            have hsort := findOverlaps_sorted hE cfg s (E.coord c) cfg.boundaryRadius none
            have hlt' : ∀ d ∈ findOverlaps E cfg s (E.coord c) cfg.boundaryRadius none true,
              d < s.rows.length := fun d hd' => ((hmem d).1 hd').1
            have hmax : 0 < cfg.maxactive := lt_of_lt_of_le (List.length_pos_iff.2 h3)
              (fillActive_length _ _ _ _ _ _ (by simp) h2)
            obtain ⟨_, k⟩ := fillActive_order (adjOf_nodup hE cfg s) (adjOf_lt hE cfg s)
              (Nat.lt_succ_self _) _ _ _ hlt' (Nat.zero_le _) h2
            rcases k with ⟨k, _⟩ | ⟨pre, d, post, e, k1, _, _, k4⟩
            · exact k c ((hmem c).2 hTs)
            · have hin : c ∈ findOverlaps E cfg s (E.coord c) cfg.boundaryRadius none true :=
                (hmem c).2 hTs
              have hzero : ∀ i ∈ findOverlaps E cfg s (E.coord c) cfg.boundaryRadius none true,
                  sepMetric (E.dist (E.coord c)) cfg.boundaryRadius (roiOf cfg s) i ≤ 0 →
                  i = c := by
                intro i hi hle
                by_contra hic
                exact absurd hle (not_le.2 (div_pos (hne i (hlt' i hi) hic) (hR i)))
              cases pre with
              | cons x xs =>
                have hx : x = c := by
                  apply hzero x (by rw [e]; simp)
                  rw [e] at hin hsort
                  rcases List.mem_cons.1 hin with h | h
                  · rw [← h, hm0]
                  · rw [← hm0]; exact (List.pairwise_cons.1 hsort).1 c h
                rw [← hx]; exact k1 x (by simp)
              | nil =>
                have hx : d = c := by
                  apply hzero d (by rw [e]; simp)
                  rw [e] at hin hsort
                  rcases List.mem_cons.1 hin with h | h
                  · rw [← h, hm0]
                  · rw [← hm0]; exact (List.pairwise_cons.1 hsort).1 c h
                rw [← hx]; exact k4 rfl rfl hmax
          · refine h4 seed hTs ?_
            rw [hm0]
            exact div_pos (hne c hc.1 hcs) (hR c)
      have hrow : ∃ r, (updAt (updAt (updAt s.rows act fun r => { r with isActive := true }) act
          fun r => { r with isValid := false }) fix fun r => { r with isValid := false })[seed]?
          = some r ∧ r.isActive = true := by
        rw [getElem?_updAt, getElem?_updAt, getElem?_updAt, List.getElem?_eq_getElem hlt]
        refine ⟨_, rfl, ?_⟩
        simp only [if_pos hin]
        split <;> rfl
      obtain ⟨r, hr, hra⟩ := hrow
      refine ⟨r, hr, hra, ?_⟩
      rw [← ha, mem_takeRows]
      exact ⟨seed, hin, hr⟩

end

/-! ## Witnesses -/

/-- One active slot, boundary radius 5, radius of influence 3. -/
def cfg1 : Config ℚ := { cfgL false with maxactive := 1 }

/-- Two sources at the same place. -/
def posTwin : List ℚ := [0, 0]

/-- C105 fails for coincident sources: the region checked out from source 1 contains only its
twin, and the seed is not active. -/
theorem C105_seed_refuted :
    (lineEnv posTwin).OK 2 ∧
    (checkout (lineEnv posTwin) cfg1 (ingest (posTwin.map fun x => mkRow x 3) [0, 0] 1 :
      State ℚ Nat Nat) 1 none).2.map (Option.map fun x => x.1.map (·.sourceIndex))
      = .ok (some [0]) ∧
    activeOf (checkout (lineEnv posTwin) cfg1 (ingest (posTwin.map fun x => mkRow x 3) [0, 0] 1 :
      State ℚ Nat Nat) 1 none).1 1 = false := by
  refine ⟨lineEnv_ok _, ?_, ?_⟩ <;> decide +kernel

/-- Three isolated sources, the second nearer to the first than the third is. -/
def posThree : List ℚ := [0, 4, 5]

/-- Radii of influence: the third source is much larger than the second; no two sources overlap
each other except the last two. -/
def cfgThree (slots : Nat) : Config ℚ where
  maxactive := slots
  boundaryRadius := 5
  minradius := 1
  buffer := 3
  strict := false
  roi := some fun i => if i = 2 then 4 else 1/2

/-- C105 does not hold with plain distance, as the docstrings of `grow_scene` ("in order of
increasing distance from the seed") and `checkout_region` ("only the closest") have it: with room
for one fixed source the one at distance 5 is chosen although the one at distance 4 also touches
the region, and with two active slots the source at distance 5 is made active and the one at
distance 4 is not. -/
theorem C105_distance_refuted :
    (lineEnv posThree).OK 3 ∧
    growScene (lineEnv posThree) (cfgThree 1) (ingest (posThree.map fun x => mkRow x 3) [0, 0, 0] 1 :
      State ℚ Nat Nat) 0 (some 1) = .ok (some (7/2, [0], [2])) ∧
    Touches ((lineEnv posThree).dist 0) (6/5 * (7/2)) 5 (fun i => if i = 2 then 4 else 1/2) 3 1 ∧
    (∃ r f, growScene (lineEnv posThree) (cfgThree 2)
      (ingest (posThree.map fun x => mkRow x 3) [0, 0, 0] 1 : State ℚ Nat Nat) 0 none
        = .ok (some (r, [0, 2], f))) ∧
    (lineEnv posThree).dist 0 1 < (lineEnv posThree).dist 0 2 := by
  refine ⟨lineEnv_ok _, by decide +kernel, ?_, ⟨19/2, [1], by decide +kernel⟩, by decide +kernel⟩
  unfold Touches
  decide +kernel

/-- Case for C105: the hypotheses hold for the two pairs and the seed is handed out. -/
example : (∀ i, i < 4 → i ≠ 1 → 0 < (lineEnv pos4).dist ((lineEnv pos4).coord 1) i) ∧
    growScene (lineEnv pos4) (cfgL true) (ingest cat4 [0, 0, 0, 0] 1 : State ℚ Nat Nat) 1 none
      = .ok (some (6, [1, 0], [])) := by
  decide +kernel

end Forcepho.Linked
