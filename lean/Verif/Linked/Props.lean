import Verif.Linked.Lemmas
import Verif.SuperScene.Props
import Mathlib.Data.Rat.Defs
import Mathlib.Tactic.IntervalCases
import Mathlib.Tactic.NormNum
import Mathlib.Algebra.Order.Ring.Rat
import Mathlib.Algebra.Field.Rat

/-!
# Properties C14–C16 and C68 of the linked super-scene
-/

set_option autoImplicit false

namespace Forcepho.Linked

open Forcepho.SuperScene

/-! ## Concrete cases -/

/-- Sources on a line at rational positions. -/
def lineEnv (pos : List ℚ) : Env ℚ ℚ where
  coord i := pos.getD i 0
  dist c i := |c - pos.getD i 0|
  ball c r := (List.range pos.length).filter fun i => decide (|c - pos.getD i 0| ≤ r)
  argsortBy key l := l.insertionSort fun i j => key i ≤ key j
  meanCenter rows := (rows.map fun r => r.par.ra).sum / rows.length

theorem lineEnv_ok (pos : List ℚ) : (lineEnv pos).OK pos.length where
  ball_nodup c r := List.nodup_range.filter _
  mem_ball c r i := by simp [lineEnv]
  argsort_perm key l := List.perm_insertionSort _ l
  argsort_sorted key l := by
    have : IsTrans Nat fun i j => key i ≤ key j := ⟨fun _ _ _ h1 h2 => le_trans h1 h2⟩
    have : Std.Total fun i j => key i ≤ key j := ⟨fun _ _ => le_total _ _⟩
    exact List.pairwise_insertionSort (fun i j => key i ≤ key j) l

/-- A row at position `x` with half-light radius `rh`. -/
def mkRow (x rh : ℚ) : Row ℚ where
  id := 0
  sourceIndex := 0
  isActive := false
  isValid := false
  nIter := 0
  nPatch := 0
  par := { flux := [1], ra := x, dec := 0, q := 1, pa := 0, sersic := 1, rhalf := rh }

/-- Settings of the examples: three active slots, boundary radius 5, radius of influence 3. -/
def cfgL (strict : Bool) : Config ℚ where
  maxactive := 3
  boundaryRadius := 5
  minradius := 1
  buffer := 1
  strict := strict
  roi := some fun _ => 3

/-- The linked scene right after construction. -/
def fresh {K B C : Type} (cat : List (Row K)) (bounds : List B) (one : C) : Sys K B C where
  st := ingest cat bounds one
  out := []

/-- Five sources in a chain: each overlaps its neighbours. -/
def pos5 : List ℚ := [0, 4, 8, 12, 16]
/-- Two pairs far apart. -/
def pos4 : List ℚ := [0, 4, 40, 44]

section
variable {K B C P : Type} [Field K] [LinearOrder K]

/-! ## C14 -/

/-- C14: for any neighbour function on a finite catalog, growth from `index` terminates within
`n + 1` passes (and any larger number gives the same answer) and returns, without duplicates,
exactly the indices reachable by chains of neighbours. -/
theorem C14_grow (adj : Nat → List Nat) (n index : Nat) (hadj : ∀ i, (adj i).Nodup)
    (hlt : ∀ i, ∀ j ∈ adj i, j < n) (hi : index < n) :
    ∃ res, (∀ fuel, n < fuel → growSource adj fuel index = some res) ∧ res.Nodup ∧
      res.head? = some index ∧
      ∀ x, x ∈ res ↔ Relation.ReflTransGen (fun a b => b ∈ adj a) index x := by
  obtain ⟨res, h1, h2, _, h4⟩ := growSource_spec (index := index) hadj hlt hi (Nat.lt_succ_self n)
  refine ⟨res, ?_, h2, ?_, h4⟩
  · intro fuel hf
    exact growLoop_fuel (n + 1) fuel hf _ _ _ h1
  · have := growLoop_head (n + 1) [] [index] res h1
    obtain ⟨t, ht⟩ := this
    simp [ht]

/-- C14, for the neighbours the code computes: the group is the set of sources reachable by
chains of sources closer than the sum of their radii of influence. -/
theorem C14_grow_overlap [IsStrictOrderedRing K] (E : Env P K) (cfg : Config K) (roi : Nat → K)
    (n : Nat) (G : Geo E cfg roi n) (s : State K B C) (index : Nat) (hi : index < n) :
    ∃ res, growSource (adjOf E cfg s) (n + 1) index = some res ∧ res.Nodup ∧
      ∀ x, x ∈ res ↔ Relation.ReflTransGen (Overlap E roi n) index x := by
  obtain ⟨res, h1, h2, _, h4⟩ := growSource_spec (index := index) (adjOf_nodup G.ok cfg s)
    (adjOf_lt G.ok cfg s) hi (Nat.lt_succ_self n)
  refine ⟨res, h1, h2, fun x => ?_⟩
  rw [h4 x, ← clip_conn n _ (adjOf_lt G.ok cfg s) index x hi, G.conn_iff s index x hi]

/-! ## C16 -/

/-- C16: for the overlaps the code computes, the group catalog numbers groups from 0, uses every
number, and gives two sources the same number exactly when a chain of overlaps joins them. -/
theorem C16_groups [IsStrictOrderedRing K] (E : Env P K) (cfg : Config K) (roi : Nat → K)
    (n : Nat) (G : Geo E cfg roi n) (s : State K B C) :
    ∃ gid ngroup, makeGroupCatalog (adjOf E cfg s) n = some (gid, ngroup) ∧ gid.length = n ∧
      (∀ i, i < n → ∃ k : Nat, k < ngroup ∧ gid[i]? = some (k : Int)) ∧
      (∀ k : Nat, k < ngroup → ∃ i, i < n ∧ gid[i]? = some (k : Int)) ∧
      (∀ i j, i < n → j < n →
        (gid[i]? = gid[j]? ↔ Relation.ReflTransGen (Overlap E roi n) i j)) := by
  have hlt := adjOf_lt G.ok cfg s
  obtain ⟨gid, gind, h1, H⟩ := groupLoop_spec (clip_nodup n _ (adjOf_nodup G.ok cfg s))
    (clip_lt n _ hlt) (clip_symm n _ hlt (fun i j hi h => G.symm s i j hi h)) (n + 1)
    (Nat.lt_succ_self n) (List.range n) (List.replicate n (-1)) 0 (by simp)
    { len := by simp
      range := by
        intro i g h
        rw [List.getElem?_replicate] at h
        split at h
        · obtain rfl := Option.some.inj h; omega
        · cases h
      same := by
        intro i j g h hg
        rw [List.getElem?_replicate] at hg
        split at hg
        · obtain rfl := Option.some.inj hg; omega
        · cases hg
      closed := by
        intro i j g h hg
        rw [List.getElem?_replicate] at hg
        split at hg
        · obtain rfl := Option.some.inj hg; omega
        · cases hg
      done := by
        intro i g h hi
        rw [List.getElem?_replicate] at h
        split at h
        · simp at hi; omega
        · cases h
      used := by intro k hk; omega }
  have hget : ∀ i, i < n → ∃ k : Nat, k < gind ∧ gid[i]? = some (k : Int) := by
    intro i hi
    have hg : gid[i]? = some (gid[i]'(by rw [H.len]; exact hi)) := List.getElem?_eq_getElem _
    have h0 := H.done i _ hg (by simp)
    have hr := H.range i _ hg
    refine ⟨(gid[i]'(by rw [H.len]; exact hi)).toNat, by omega, ?_⟩
    rw [hg]; congr 1; omega
  refine ⟨gid, gind, ?_, H.len, hget, ?_, ?_⟩
  · unfold makeGroupCatalog
    rw [groupLoop_clip n _ hlt _ _ _ _ (by simp)]
    exact h1
  · intro k hk
    obtain ⟨i, hi⟩ := H.used k hk
    refine ⟨i, ?_, hi⟩
    rw [← H.len]
    exact (List.getElem?_eq_some_iff.1 hi).1
  · intro i j hi hj
    obtain ⟨a, _, ha⟩ := hget i hi
    obtain ⟨b, _, hb⟩ := hget j hj
    rw [← G.conn_iff s i j hi, ← H.same i j a b ha hb (by omega) (by omega), ha, hb]
    simp

/-! ## C15 -/

/-- The outstanding regions are exclusive and the count is right: full statement of C15 for one
system. -/
def Exclusive (y : Sys K B C) : Prop :=
  y.st.nActive = (y.st.rows.countP (·.isActive) : Int) ∧
  (∀ (j k : Nat) (h h' : Held K), y.out[j]? = some h → y.out[k]? = some h' → j ≠ k →
      ∀ r ∈ h.active, ∀ r' ∈ h'.active, r.sourceIndex ≠ r'.sourceIndex)

/-- C15, partial: exclusivity and the count hold in every history when filling is strict, the
radii of influence are fixed and at most the boundary radius, and every group of overlapping
sources fits in the active slots.  The unconditional claim is refuted below. -/
theorem C15_partial [IsStrictOrderedRing K] (E : Env P K) (cfg : Config K) (roi : Nat → K)
    (cat : List (Row K)) (bounds : List B) (one : C) (N : Nice E cfg roi cat.length)
    (ops : List (Op K B C)) : Exclusive (run E cfg (fresh cat bounds one) ops) := by
  have H : SInv cat.length (toSys (run E cfg (fresh cat bounds one) ops)) :=
    N.run_inv (ingest cat bounds one) ops _ (inv_fresh cat bounds one)
      (by intro h hh; simp [toSys, fresh] at hh)
  set y := run E cfg (fresh cat bounds one) ops
  have hlt : ∀ i ∈ (toSys y).out.flatMap SuperScene.Held.actIdx, i < y.st.rows.length := by
    intro i hi
    obtain ⟨h, hh, hi⟩ := List.mem_flatMap.1 hi
    rw [show y.st.rows.length = cat.length from H.len]
    exact H.heldLt h hh i (List.mem_append_left _ hi)
  refine ⟨?_, ?_⟩
  · rw [countP_eq_length_of_mem_iff y.st.rows (·.isActive) _ H.actNodup hlt
      (fun i a ha => H.flag i a ha)]
    exact H.nAct
  · intro j k h h' hj hk hjk r hr r' hr' he
    have hp := (List.nodup_flatMap.1 H.actNodup).2
    rw [List.pairwise_iff_getElem] at hp
    have h1 := List.getElem?_eq_some_iff.1 hj
    have h2 := List.getElem?_eq_some_iff.1 hk
    obtain ⟨hjl, hje⟩ := h1
    obtain ⟨hkl, hke⟩ := h2
    have hl : (toSys y).out.length = y.out.length := by simp [toSys]
    have ge : ∀ (m : Nat) (hm : m < (toSys y).out.length), ((toSys y).out[m]).active =
        (y.out[m]'(hl ▸ hm)).active := by
      intro m hm; simp [toSys]
    rcases Nat.lt_or_gt_of_ne hjk with hlt' | hlt'
    · refine hp j k (hl ▸ hjl) (hl ▸ hkl) hlt' (a := r.sourceIndex) ?_ ?_
      · simp only [SuperScene.Held.actIdx, ge, hje]; exact List.mem_map_of_mem hr
      · simp only [SuperScene.Held.actIdx, ge, hke, he]; exact List.mem_map_of_mem hr'
    · refine hp k j (hl ▸ hkl) (hl ▸ hjl) hlt' (a := r.sourceIndex) ?_ ?_
      · simp only [SuperScene.Held.actIdx, ge, hke, he]; exact List.mem_map_of_mem hr'
      · simp only [SuperScene.Held.actIdx, ge, hje]; exact List.mem_map_of_mem hr

/-! ## C68 -/

/-- C68: whatever the state and settings, a linked region that is handed out has at least one
and at most `maxactive` active sources, at most the requested number of fixed sources (default
`maxactive`), no fixed source that is also active, none of the sources overlapping the seed's
boundary was already active, and the region's radius covers every active source's radius of
influence plus the buffer. -/
theorem C68_linked_region (E : Env P K) (cfg : Config K) (s : State K B C) (n : Nat)
    (hE : E.OK n) (seed : Nat) (mf : Option Nat) (radius : K) (act fix : List Nat)
    (h : growScene E cfg s seed mf = .ok (some (radius, act, fix))) :
    0 < act.length ∧ act.length ≤ cfg.maxactive ∧ fix.length ≤ mf.getD cfg.maxactive ∧
    (∀ i ∈ fix, i < n ∧ i ∉ act) ∧ fix.Nodup ∧
    (∀ i, i < n → E.dist (E.coord seed) i ≤ cfg.boundaryRadius + cfg.boundaryRadius →
      overlapTest (E.dist (E.coord seed) i) (cfg.boundaryRadius + roiOf cfg s i) = true →
      activeOf s i = false) ∧
    cfg.minradius ≤ radius ∧
    (∀ i ∈ act, E.dist (E.meanCenter (takeRows s.rows act)) i + roiOf cfg s i + cfg.buffer
      ≤ radius) := by
  obtain ⟨h1, h2, h3, h4, h5, h6⟩ := growScene_some h
  refine ⟨List.length_pos_iff.2 h3, fillActive_length _ _ _ _ _ _ (by simp) h2, ?_, ?_, ?_, ?_, ?_, h5⟩
  · rw [h6]; exact List.length_take_le _ _
  · intro i hi
    rw [h6] at hi
    have := List.mem_of_mem_take hi
    rw [List.mem_filter] at this
    exact ⟨((mem_findOverlaps hE _ _ _ _ _ _ _).1 this.1).1, by simpa using this.2⟩
  · rw [h6]
    exact ((nodup_findOverlaps hE _ _ _ _ _ _).filter _).sublist (List.take_sublist _ _)
  · intro i hi hd ho
    exact h1 i ((mem_findOverlaps hE _ _ _ _ _ _ _).2 ⟨hi, hd, ho, by simp⟩)
  · rw [h4]; exact le_max_left _ _

end

/-! ## Witnesses -/

/-- The chain of five sources of C15's refutation. -/
def cat5 : List (Row ℚ) := pos5.map fun x => mkRow x 3

/-- Two checkouts from the ends of the chain. -/
def ops5 : List (Op ℚ Nat Nat) := [.checkout 0 none, .checkout 4 none]

/-- C15 is false of the code: with lax filling and a group larger than the active slots, two
regions checked out from the ends of a chain share a source, and the active count is 6 with 5
active rows. -/
theorem C15_refuted :
    (lineEnv pos5).OK cat5.length ∧
    ¬ Exclusive (run (lineEnv pos5) (cfgL false) (fresh cat5 [0, 0, 0, 0, 0] 1) ops5) := by
  refine ⟨lineEnv_ok _, ?_⟩
  intro h
  exact absurd h.1 (by decide +kernel)

/-- The same with strict filling: the first group is still truncated. -/
theorem C15_refuted_strict :
    ¬ Exclusive (run (lineEnv pos5) (cfgL true) (fresh cat5 [0, 0, 0, 0, 0] 1) ops5) := by
  intro h
  exact absurd h.1 (by decide +kernel)

/-- Two pairs of sources far apart: the catalog of the positive examples. -/
def cat4 : List (Row ℚ) := pos4.map fun x => mkRow x 3

theorem geo4 : Geo (lineEnv pos4) (cfgL true) (fun _ => 3) 4 where
  ok := lineEnv_ok pos4
  roi_eq := rfl
  roi_nonneg _ := by norm_num
  roi_le _ := by norm_num [cfgL]
  dist_nonneg p i := abs_nonneg _
  dist_symm i j _ _ := abs_sub_comm _ _

/-- Case for C14, C16: two groups are found. -/
example : growSource (adjOf (lineEnv pos4) (cfgL true) (ingest cat4 [0, 0, 0, 0] 1)) 5 0
      = some [0, 1] ∧
    makeGroupCatalog (adjOf (lineEnv pos4) (cfgL true) (ingest cat4 [0, 0, 0, 0] 1)) 4
      = some ([0, 0, 1, 1], 2) := by
  decide +kernel

/-- The hypotheses of C15_partial are met by the two pairs. -/
theorem nice4 : Nice (lineEnv pos4) (cfgL true) (fun _ => 3) 4 where
  toGeo := geo4
  strict := rfl
  size := by
    intro i hi l hl hm
    have hstep : ∀ a b : Nat, a < 4 → Overlap (lineEnv pos4) (fun _ => 3) 4 a b →
        a / 2 = b / 2 ∧ b < 4 := by
      intro a b ha h
      obtain ⟨h1, h2, h3⟩ := h
      refine ⟨?_, h2⟩
      revert h3
      have hd : ∀ a < 4, ∀ b < 4, (lineEnv pos4).dist ((lineEnv pos4).coord a) b < 3 + 3 →
          a / 2 = b / 2 := by decide +kernel
      exact hd a ha b h2
    have hreach : ∀ x ∈ l, x / 2 = i / 2 ∧ x < 4 := by
      intro x hx
      have := hm x hx
      clear hx
      induction this with
      | refl => exact ⟨rfl, hi⟩
      | tail _ hab ih =>
        obtain ⟨e, hlt⟩ := hstep _ _ ih.2 hab
        exact ⟨e ▸ ih.1, hlt⟩
    have hsub : l ⊆ [2 * (i / 2), 2 * (i / 2) + 1] := by
      intro x hx
      have := hreach x hx
      simp only [List.mem_cons, List.not_mem_nil, or_false]
      omega
    have := (hl.subperm hsub).length_le
    simp [cfgL] at this ⊢
    omega

/-- Two checkouts of different pairs and one that is refused. -/
def ops4 : List (Op ℚ Nat Nat) := [.checkout 0 none, .checkout 3 none, .checkout 1 none]

/-- A history meeting the hypotheses of C15_partial: two regions out, a third refused. -/
example : (run (lineEnv pos4) (cfgL true) (fresh cat4 [0, 0, 0, 0] 1) ops4).out.length = 2 ∧
    (run (lineEnv pos4) (cfgL true) (fresh cat4 [0, 0, 0, 0] 1) ops4).st.nActive = 4 := by
  decide +kernel

/-- Case for C68. -/
example : growScene (lineEnv pos5) (cfgL false) (ingest cat5 [0, 0, 0, 0, 0] 1 : State ℚ Nat Nat)
    0 none = .ok (some (8, [0, 1, 2], [3, 4])) := by
  decide +kernel

end Forcepho.Linked
