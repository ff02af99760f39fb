import Verif.Linked.Grow
import Mathlib.Tactic.Linarith
import Mathlib.Tactic.FieldSimp

/-! Lemmas about `find_overlaps`, `grow_scene` and histories of the linked scene. -/

set_option autoImplicit false

namespace Forcepho.Linked

open Forcepho.SuperScene

variable {K B C P : Type} [Field K] [LinearOrder K]

theorem mem_findOverlaps {E : Env P K} {n : Nat} (hE : E.OK n) (cfg : Config K)
    (s : State K B C) (c : P) (r : K) (seed : Option Nat) (sort : Bool) (i : Nat) :
    i ∈ findOverlaps E cfg s c r seed sort ↔
      i < n ∧ E.dist c i ≤ r + cfg.boundaryRadius ∧
        overlapTest (E.dist c i) (r + roiOf cfg s i) = true ∧ some i ≠ seed := by
  unfold findOverlaps
  simp only
  split
  · rw [(hE.argsort_perm _ _).mem_iff, List.mem_filter, hE.mem_ball]
    simp [and_assoc]
  · rw [List.mem_filter, hE.mem_ball]
    simp [and_assoc]

theorem nodup_findOverlaps {E : Env P K} {n : Nat} (hE : E.OK n) (cfg : Config K)
    (s : State K B C) (c : P) (r : K) (seed : Option Nat) (sort : Bool) :
    (findOverlaps E cfg s c r seed sort).Nodup := by
  unfold findOverlaps
  simp only
  split
  · rw [(hE.argsort_perm _ _).nodup_iff]; exact (hE.ball_nodup _ _).filter _
  · exact (hE.ball_nodup _ _).filter _

theorem adjOf_nodup {E : Env P K} {n : Nat} (hE : E.OK n) (cfg : Config K) (s : State K B C) :
    ∀ i, (adjOf E cfg s i).Nodup := fun _ => nodup_findOverlaps hE _ _ _ _ _ _

theorem adjOf_lt {E : Env P K} {n : Nat} (hE : E.OK n) (cfg : Config K) (s : State K B C) :
    ∀ i, ∀ j ∈ adjOf E cfg s i, j < n := fun _ _ h => ((mem_findOverlaps hE _ _ _ _ _ _ _).1 h).1

/-- For a positive denominator the metric test is the distance test. -/
theorem overlapTest_pos [IsStrictOrderedRing K] {d R : K} (hd : 0 ≤ d) (hR : 0 < R) :
    overlapTest d R = true ↔ d < R := by
  simp only [overlapTest, decide_eq_true_eq]
  constructor
  · rintro ⟨_, h, _⟩; rwa [div_lt_one hR] at h
  · intro h; exact ⟨hR.ne', by rwa [div_lt_one hR], div_nonneg hd hR.le⟩

theorem overlapTest_nonpos [IsStrictOrderedRing K] {d R : K} (hd : 0 < d) (hR : R ≤ 0) :
    overlapTest d R = false := by
  simp only [overlapTest, decide_eq_false_iff_not, not_and, not_le]
  intro hR0 _
  exact div_neg_of_pos_of_neg hd (lt_of_le_of_ne hR hR0)

/-- Whole connected groups: everything connected to a member is a member. -/
def ClosedUnder (adj : Nat → List Nat) (l : List Nat) : Prop :=
  ∀ x ∈ l, ∀ y, Conn adj x y → y ∈ l

/-- The filling loop, strict mode with every group fitting. -/
theorem fillActive_strict {adj : Nat → List Nat} {n maxactive fuel : Nat}
    (hadj : ∀ i, (adj i).Nodup) (hlt : ∀ i, ∀ j ∈ adj i, j < n)
    (hs : ∀ i j, j ∈ adj i → i ∈ adj j) (hf : n < fuel)
    (hsize : ∀ i, i < n → ∀ l : List Nat, l.Nodup → (∀ x ∈ l, Conn adj i x) →
      l.length ≤ maxactive) :
    ∀ (cands act : List Nat), (∀ c ∈ cands, c < n) → act.Nodup → ClosedUnder adj act →
      (∀ x ∈ act, x < n) → act.length ≤ maxactive →
      ∃ res, fillActive (growSource adj fuel) maxactive true cands act = some res ∧
        res.Nodup ∧ ClosedUnder adj res ∧ (∀ x ∈ res, x < n) ∧ res.length ≤ maxactive ∧
        (∀ x ∈ res, x ∈ act ∨ ∃ c ∈ cands, Conn adj c x) := by
  intro cands
  induction cands with
  | nil =>
    intro act _ h1 h2 h3 h4
    exact ⟨act, rfl, h1, h2, h3, h4, fun x hx => Or.inl hx⟩
  | cons c t ih =>
    intro act hc h1 h2 h3 h4
    rw [fillActive]
    split
    · obtain ⟨res, a1, a2, a3, a4, a5, a6⟩ := ih act (fun x hx => hc x (by simp [hx])) h1 h2 h3 h4
      refine ⟨res, a1, a2, a3, a4, a5, ?_⟩
      intro x hx
      rcases a6 x hx with h | ⟨c', hc', h⟩
      · exact Or.inl h
      · exact Or.inr ⟨c', by simp [hc'], h⟩
    · rename_i hna
      obtain ⟨g, hg, hgn, hgl, hgm⟩ := growSource_spec (index := c) hadj hlt (hc c (by simp)) hf
      rw [hg]
      simp only
      split
      · rename_i hbig
        have hle := hsize c (hc c (by simp)) g hgn (fun x hx => (hgm x).1 hx)
        split
        · rename_i hor
          rcases hor with h | h
          · cases h
          · omega
        · exact ⟨act, rfl, h1, h2, h3, h4, fun x hx => Or.inl hx⟩
      · rename_i hfit
        have hdis : ∀ x ∈ act, x ∉ g := by
          intro x hx hxg
          exact hna (h2 x hx c (((hgm x).1 hxg).symm hs))
        obtain ⟨res, a1, a2, a3, a4, a5, a6⟩ := ih (act ++ g) (fun x hx => hc x (by simp [hx]))
          (List.nodup_append.2 ⟨h1, hgn, fun x hx y hy he => hdis x hx (he ▸ hy)⟩)
          (by
            intro x hx y hxy
            rcases List.mem_append.1 hx with h | h
            · exact List.mem_append_left _ (h2 x h y hxy)
            · exact List.mem_append_right _ ((hgm y).2 (((hgm x).1 h).trans hxy)))
          (by
            intro x hx
            rcases List.mem_append.1 hx with h | h
            · exact h3 x h
            · exact hgl x h)
          (by rw [List.length_append]; omega)
        refine ⟨res, a1, a2, a3, a4, a5, ?_⟩
        intro x hx
        rcases a6 x hx with h | ⟨c', hc', h⟩
        · rcases List.mem_append.1 h with h | h
          · exact Or.inl h
          · exact Or.inr ⟨c, by simp, (hgm x).1 h⟩
        · exact Or.inr ⟨c', by simp [hc'], h⟩

/-- Size bound of the filling loop in every mode. -/
theorem fillActive_length (grow : Nat → Option (List Nat)) (maxactive : Nat) (strict : Bool) :
    ∀ (cands act res : List Nat), act.length ≤ maxactive →
      fillActive grow maxactive strict cands act = some res → res.length ≤ maxactive := by
  intro cands
  induction cands with
  | nil => intro act res h1 h2; simp [fillActive] at h2; subst h2; exact h1
  | cons c t ih =>
    intro act res h1 h2
    rw [fillActive] at h2
    split at h2
    · exact ih act res h1 h2
    · simp only at h2
      split at h2
      · cases h2
      · split at h2
        · split at h2
          · obtain rfl := Option.some.inj h2
            rw [List.length_append, List.length_take]; omega
          · obtain rfl := Option.some.inj h2; exact h1
        · exact ih _ res (by rw [List.length_append]; omega) h2

/-- Facts about a region grown by `grow_scene`. -/
theorem growScene_some {E : Env P K} {cfg : Config K} {s : State K B C} {seed : Nat}
    {mf : Option Nat} {radius : K} {act fix : List Nat}
    (h : growScene E cfg s seed mf = .ok (some (radius, act, fix))) :
    let cands := findOverlaps E cfg s (E.coord seed) cfg.boundaryRadius none true
    (∀ c ∈ cands, activeOf s c = false) ∧
    fillActive (growSource (adjOf E cfg s) (s.rows.length + 1)) cfg.maxactive cfg.strict
      cands [] = some act ∧ act ≠ [] ∧
    radius = max cfg.minradius radius ∧
    (∀ i ∈ act, E.dist (E.meanCenter (takeRows s.rows act)) i + roiOf cfg s i + cfg.buffer
      ≤ radius) ∧
    fix = ((findOverlaps E cfg s (E.meanCenter (takeRows s.rows act)) (6 / 5 * radius) none
      true).filter fun i => decide (i ∉ act)).take (mf.getD cfg.maxactive) := by
  intro cands
  unfold growScene at h
  simp only at h
  split at h
  · cases h
  split at h
  · cases h
  rename_i hany
  split at h
  · cases h
  rename_i act' hfill
  split at h
  · cases h
  rename_i x xs hmap
  simp only [Except.ok.injEq, Option.some.injEq, Prod.mk.injEq] at h
  obtain ⟨hr, rfl, hf⟩ := h
  refine ⟨?_, hfill, ?_, ?_, ?_, ?_⟩
  · intro c hc
    simp only [Bool.not_eq_true, List.any_eq_false] at hany
    simpa using hany c hc
  · rintro rfl; simp at hmap
  · rw [← hr]; simp
  · intro i hi
    rw [← hr]
    have : E.dist (E.meanCenter (takeRows s.rows act')) i + roiOf cfg s i + cfg.buffer ∈ x :: xs := by
      rw [← hmap]
      exact List.mem_map_of_mem
        (f := fun i => E.dist (E.meanCenter (takeRows s.rows act')) i + roiOf cfg s i + cfg.buffer) hi
    rcases List.mem_cons.1 this with h | h
    · rw [h]; exact le_trans (maxOf_ge_init _ _) (le_max_right _ _)
    · exact le_trans (maxOf_ge_mem x xs _ h) (le_max_right _ _)
  · rw [← hf, ← hr]

/-- View of a linked system as a system of the base class. -/
def toSys (y : Sys K B C) : SuperScene.Sys K B C where
  st := y.st
  out := y.out.map fun h => ⟨h.active, h.fixed.getD []⟩

omit [Field K] [LinearOrder K] in
theorem toSys_fixIdx (h : Held K) (pars : List (Params K)) (niter : Int) (bc : Option (List C))
    (tid : Option String) :
    (heldArgs h pars niter bc tid : CheckinArgs K B C).fixIdx =
      SuperScene.Held.fixIdx ⟨h.active, h.fixed.getD []⟩ := by
  cases hf : h.fixed <;> simp [heldArgs, CheckinArgs.fixIdx, SuperScene.Held.fixIdx, hf]

/-- Conditions on geometry and settings: a fixed radius of influence, non-negative and no larger
than the boundary radius, and symmetric non-negative distances. -/
structure Geo (E : Env P K) (cfg : Config K) (roi : Nat → K) (n : Nat) : Prop where
  ok : E.OK n
  roi_eq : cfg.roi = some roi
  roi_nonneg : ∀ i, 0 ≤ roi i
  roi_le : ∀ i, roi i ≤ cfg.boundaryRadius
  dist_nonneg : ∀ p i, 0 ≤ E.dist p i
  dist_symm : ∀ i j, i < n → j < n → E.dist (E.coord i) j = E.dist (E.coord j) i

/-- Two sources overlap iff distinct, in the catalog, and closer than the sum of their radii of
influence.  Independent of the neighbour lists of the code. -/
def Overlap (E : Env P K) (roi : Nat → K) (n : Nat) (a b : Nat) : Prop :=
  a ≠ b ∧ b < n ∧ E.dist (E.coord a) b < roi a + roi b

/-- Conditions under which linked regions are exclusive: moreover strict filling, and no group
of overlapping sources larger than the number of active slots. -/
structure Nice (E : Env P K) (cfg : Config K) (roi : Nat → K) (n : Nat) : Prop
    extends Geo E cfg roi n where
  strict : cfg.strict = true
  size : ∀ i, i < n → ∀ l : List Nat, l.Nodup →
    (∀ x ∈ l, Relation.ReflTransGen (Overlap E roi n) i x) → l.length ≤ cfg.maxactive

section nice
variable [IsStrictOrderedRing K] {E : Env P K} {cfg : Config K} {roi : Nat → K} {n : Nat}

/-- The neighbour lists are exactly the overlaps. -/
theorem Geo.mem_adj (N : Geo E cfg roi n) (s : State K B C) (a b : Nat) :
    b ∈ adjOf E cfg s a ↔ Overlap E roi n a b := by
  unfold Overlap
  have hroi : ∀ i, roiOf cfg s i = roi i := fun i => by simp [roiOf, N.roi_eq]
  unfold adjOf
  rw [mem_findOverlaps N.ok, hroi, hroi]
  have hd := N.dist_nonneg (E.coord a) b
  constructor
  · rintro ⟨h1, h2, h3, h4⟩
    refine ⟨fun he => h4 (by rw [he]), h1, ?_⟩
    by_cases hR : 0 < roi a + roi b
    · exact (overlapTest_pos hd hR).1 h3
    · have h0 : roi a + roi b = 0 := le_antisymm (not_lt.1 hR)
        (add_nonneg (N.roi_nonneg a) (N.roi_nonneg b))
      rw [h0] at h3
      simp [overlapTest] at h3
  · rintro ⟨h1, h2, h3⟩
    have hR : 0 < roi a + roi b := lt_of_le_of_lt hd h3
    refine ⟨h2, ?_, (overlapTest_pos hd hR).2 h3, fun he => h1 (Option.some.inj he).symm⟩
    have := N.roi_le b
    linarith

theorem Geo.symm (N : Geo E cfg roi n) (s : State K B C) (i j : Nat) (hi : i < n)
    (h : j ∈ adjOf E cfg s i) : i ∈ adjOf E cfg s j := by
  rw [N.mem_adj] at h ⊢
  refine ⟨h.1.symm, hi, ?_⟩
  rw [N.dist_symm j i h.2.1 hi, add_comm]
  exact h.2.2

/-- Neighbour lists restricted to catalog members, used to speak of chains. -/
def clip (n : Nat) (adj : Nat → List Nat) (i : Nat) : List Nat := if i < n then adj i else []

theorem growLoop_clip (n : Nat) (adj : Nat → List Nat) (hlt : ∀ i, ∀ j ∈ adj i, j < n)
    (fuel : Nat) : ∀ (members seeds : List Nat), (∀ x ∈ seeds, x < n) →
      growLoop adj fuel members seeds = growLoop (clip n adj) fuel members seeds := by
  have hcl : ∀ (seeds leaves : List Nat), (∀ x ∈ seeds, x < n) →
      collectLeaves adj seeds leaves = collectLeaves (clip n adj) seeds leaves := by
    intro seeds
    induction seeds with
    | nil => intro leaves _; rfl
    | cons a t ih =>
      intro leaves h
      have ha : a < n := h a (by simp)
      simp only [collectLeaves, clip, ha, if_true]
      exact ih _ (fun x hx => h x (by simp [hx]))
  induction fuel with
  | zero => intros; rfl
  | succ f ih =>
    intro members seeds h
    simp only [growLoop, hcl seeds [] h]
    split
    · rfl
    · apply ih
      intro x hx
      rw [List.mem_filter, ← hcl seeds [] h, mem_collectLeaves] at hx
      rcases hx.1 with h' | ⟨s, _, h'⟩
      · simp at h'
      · exact hlt s x h'

/-- Third invariant: held regions are unions of whole groups. -/
def Closed (adj : Nat → List Nat) (y : SuperScene.Sys K B C) : Prop :=
  ∀ h ∈ y.out, ClosedUnder adj h.actIdx

theorem Geo.conn_iff (N : Geo E cfg roi n) (s : State K B C) (i x : Nat) (hi : i < n) :
    Conn (clip n (adjOf E cfg s)) i x ↔ Relation.ReflTransGen (Overlap E roi n) i x := by
  constructor
  · intro h
    induction h with
    | refl => exact Relation.ReflTransGen.refl
    | tail _ hl ih =>
      refine ih.tail ?_
      unfold Link clip at hl
      split at hl
      · exact (N.mem_adj s _ _).1 hl
      · simp at hl
  · intro h
    have : Conn (clip n (adjOf E cfg s)) i x ∧ x < n := by
      induction h with
      | refl => exact ⟨Relation.ReflTransGen.refl, hi⟩
      | tail _ hl ih =>
        refine ⟨ih.1.tail ?_, hl.2.1⟩
        unfold Link clip
        rw [if_pos ih.2]
        exact (N.mem_adj s _ _).2 hl
    exact this.1

theorem clip_nodup (n : Nat) (adj : Nat → List Nat) (h : ∀ i, (adj i).Nodup) (i : Nat) :
    (clip n adj i).Nodup := by
  unfold clip; split
  · exact h i
  · exact List.nodup_nil

theorem clip_lt (n : Nat) (adj : Nat → List Nat) (h : ∀ i, ∀ j ∈ adj i, j < n) (i : Nat) :
    ∀ j ∈ clip n adj i, j < n := by
  unfold clip; split
  · exact h i
  · intro j hj; simp at hj

theorem clip_symm (n : Nat) (adj : Nat → List Nat) (h : ∀ i, ∀ j ∈ adj i, j < n)
    (hs : ∀ i j, i < n → j ∈ adj i → i ∈ adj j) (i j : Nat) (hj : j ∈ clip n adj i) :
    i ∈ clip n adj j := by
  have hjn := clip_lt n adj h i j hj
  unfold clip at hj ⊢
  split at hj
  · rename_i hi; rw [if_pos hjn]; exact hs i j hi hj
  · simp at hj

theorem clip_conn (n : Nat) (adj : Nat → List Nat) (h : ∀ i, ∀ j ∈ adj i, j < n) (i x : Nat)
    (hi : i < n) : Conn (clip n adj) i x ↔ Conn adj i x := by
  constructor
  · intro h
    induction h with
    | refl => exact Relation.ReflTransGen.refl
    | tail _ hl ih =>
      refine ih.tail ?_
      unfold Link clip at hl
      split at hl
      · exact hl
      · simp at hl
  · intro hc
    have : Conn (clip n adj) i x ∧ x < n := by
      induction hc with
      | refl => exact ⟨Relation.ReflTransGen.refl, hi⟩
      | tail _ hl ih =>
        refine ⟨ih.1.tail ?_, h _ _ hl⟩
        unfold Link clip
        rw [if_pos ih.2]
        exact hl
    exact this.1

theorem groupLoop_clip (n : Nat) (adj : Nat → List Nat) (hlt : ∀ i, ∀ j ∈ adj i, j < n)
    (fuel : Nat) : ∀ (todo : List Nat) (gid : List Int) (g : Nat), (∀ i ∈ todo, i < n) →
      groupLoop adj fuel todo gid g = groupLoop (clip n adj) fuel todo gid g := by
  intro todo
  induction todo with
  | nil => intros; rfl
  | cons i t ih =>
    intro gid g h
    have hi := h i (by simp)
    have e : growSource adj fuel i = growSource (clip n adj) fuel i :=
      growLoop_clip n adj hlt fuel [] [i] (by simpa using hi)
    simp only [groupLoop]
    rw [e]
    split
    · rfl
    · split
      · exact ih _ _ (fun x hx => h x (by simp [hx]))
      · split
        · rfl
        · exact ih _ _ (fun x hx => h x (by simp [hx]))

theorem fillActive_congr (g g' : Nat → Option (List Nat)) (m : Nat) (st : Bool) :
    ∀ (cands act : List Nat), (∀ c ∈ cands, g c = g' c) →
      fillActive g m st cands act = fillActive g' m st cands act := by
  intro cands
  induction cands with
  | nil => intros; rfl
  | cons c t ih =>
    intro act h
    rw [fillActive, fillActive, h c (by simp)]
    split
    · exact ih act (fun x hx => h x (by simp [hx]))
    · split
      · rfl
      · simp only
        split
        · rfl
        · exact ih _ (fun x hx => h x (by simp [hx]))

/-- Neighbour lists do not depend on the state when the radius of influence is fixed. -/
theorem Nice.adj_indep (N : Nice E cfg roi n) (s s' : State K B C) :
    adjOf E cfg s = adjOf E cfg s' := by
  funext i
  simp [adjOf, findOverlaps, roiOf, N.roi_eq]

/-- One step preserves exclusivity under the conditions. -/
theorem Nice.step_inv (N : Nice E cfg roi n) (y : Sys K B C) (s0 : State K B C)
    (H : SInv n (toSys y)) (G : Closed (clip n (adjOf E cfg s0)) (toSys y)) (op : Op K B C) :
    SInv n (toSys (step E cfg y op)) ∧
    Closed (clip n (adjOf E cfg s0)) (toSys (step E cfg y op)) := by
  cases op with
  | checkout k mf =>
    simp only [step, checkout]
    by_cases hk : y.st.rows.length ≤ k
    · rw [if_pos hk]; exact ⟨H, G⟩
    rw [if_neg hk]
    rcases hg : growScene E cfg y.st k mf with e | _ | ⟨radius, act, fix⟩
    · exact ⟨H, G⟩
    · exact ⟨H, G⟩
    simp only
    have hadjE : adjOf E cfg y.st = adjOf E cfg s0 := N.adj_indep _ _
    obtain ⟨h1, h2, h3, _, _, h6⟩ := growScene_some hg
    set adj := clip n (adjOf E cfg s0) with hadjdef
    have hadj : ∀ i, (adj i).Nodup := clip_nodup n _ (adjOf_nodup N.ok cfg s0)
    have hltA : ∀ i, ∀ j ∈ adj i, j < n := clip_lt n _ (adjOf_lt N.ok cfg s0)
    have hsym : ∀ i j, j ∈ adj i → i ∈ adj j :=
      clip_symm n _ (adjOf_lt N.ok cfg s0) (fun i j hi h => N.symm s0 i j hi h)
    have hlen : y.st.rows.length = n := H.len
    set cands := findOverlaps E cfg y.st (E.coord k) cfg.boundaryRadius none true with hcands
    have hclt : ∀ c ∈ cands, c < n := fun c hc => ((mem_findOverlaps N.ok _ _ _ _ _ _ _).1 hc).1
    have hfill : fillActive (growSource adj (n + 1)) cfg.maxactive true cands [] = some act := by
      rw [← h2, N.strict, hlen]
      apply fillActive_congr
      intro c hc
      have hcn := hclt c hc
      simp only [growSource]
      rw [hadjE]
      exact (growLoop_clip n _ (adjOf_lt N.ok cfg s0) (n + 1) [] [c]
        (by simpa using hcn)).symm
    obtain ⟨res, e1, e2, e3, e4, e5, e6⟩ := fillActive_strict hadj hltA hsym (Nat.lt_succ_self n)
      (fun i hi l hl hm => N.size i hi l hl (fun x hx => (N.conn_iff s0 i x hi).1 (hm x hx)))
      cands [] hclt List.nodup_nil (by intro x hx; simp at hx) (by simp) (by simp)
    rw [hfill] at e1
    obtain rfl := Option.some.inj e1
    have hfixsub : ∀ i ∈ fix, i < n ∧ i ∉ act := by
      intro i hi
      rw [h6] at hi
      have := List.mem_of_mem_take hi
      rw [List.mem_filter] at this
      exact ⟨((mem_findOverlaps N.ok _ _ _ _ _ _ _).1 this.1).1, by simpa using this.2⟩
    have hfixnd : fix.Nodup := by
      rw [h6]
      exact ((nodup_findOverlaps N.ok _ _ _ _ _ _).filter _).sublist (List.take_sublist _ _)
    have hnd : (act ++ fix).Nodup := List.nodup_append.2 ⟨e2, hfixnd,
      fun x hx z hz he => (hfixsub z hz).2 (he ▸ hx)⟩
    have hltAll : ∀ i ∈ act ++ fix, i < n := by
      intro i hi
      rcases List.mem_append.1 hi with h | h
      · exact e4 i h
      · exact (hfixsub i h).1
    have hdisj : ∀ i ∈ act, i ∉ (toSys y).out.flatMap SuperScene.Held.actIdx := by
      intro i hi hm
      obtain ⟨h, hh, hih⟩ := List.mem_flatMap.1 hm
      rcases e6 i hi with h0 | ⟨c, hc, hci⟩
      · simp at h0
      · have hcact : c ∈ h.actIdx := G h hh i hih c (hci.symm hsym)
        have hcl : c < y.st.rows.length := by rw [hlen]; exact hclt c hc
        have hr := List.getElem?_eq_getElem hcl
        have hflag := (H.flag c _ hr).2 (List.mem_flatMap.2 ⟨h, hh, hcact⟩)
        have hna := h1 c hc
        simp only [activeOf, hr] at hna
        simp [hflag] at hna
    have hidx3 := rows3_idx y.st.rows act fix H.index
    have hA : ∀ f : Option (List (Row K)), SuperScene.Held.actIdx (K := K)
        ⟨takeRows (updAt (updAt (updAt y.st.rows act fun r => { r with isActive := true })
          act fun r => { r with isValid := false }) fix fun r => { r with isValid := false }) act,
          f.getD []⟩ = act := fun f =>
      takeRows_idx hidx3 act (fun i hi => by
        simpa [hlen] using hltAll i (List.mem_append_left _ hi))
    have hFx : (Option.getD (if fix.length = 0 then none else some (takeRows y.st.rows fix))
        []).map (·.sourceIndex) = fix := by
      split
      · rename_i h0; simp [List.eq_nil_of_length_eq_zero h0]
      · exact takeRows_idx H.index fix (fun i hi => by
          rw [show (toSys y).st.rows.length = y.st.rows.length from rfl, hlen]
          exact hltAll i (List.mem_append_right _ hi))
    have key := inv_flag (toSys y) H act fix
      ⟨takeRows (updAt (updAt (updAt y.st.rows act fun r => { r with isActive := true })
          act fun r => { r with isValid := false }) fix fun r => { r with isValid := false }) act,
        Option.getD (if fix.length = 0 then none else some (takeRows y.st.rows fix)) []⟩
      (hA _) hFx hltAll hnd hdisj
    refine ⟨?_, ?_⟩
    · simpa [toSys] using key
    · intro h hh
      simp only [toSys, List.map_append, List.map_cons, List.map_nil, List.mem_append,
        List.mem_singleton] at hh
      rcases hh with hh | rfl
      · exact G h hh
      · rw [hA]; exact e3
  | checkin j pars niter bc tid =>
    simp only [step]
    cases hj : y.out[j]? with
    | none => exact ⟨H, G⟩
    | some h =>
      simp only
      split
      · rename_i hp
        have hj' : (toSys y).out[j]? = some ⟨h.active, h.fixed.getD []⟩ := by
          simp [toSys, hj]
        obtain ⟨s', hs', hI⟩ := inv_release (toSys y) H j _ hj' (heldArgs h pars niter bc tid)
          (map_zipWith_par _ _ hp) (toSys_fixIdx h pars niter bc tid)
          (by intro b hb; simp [heldArgs] at hb)
        have hs'' : checkin y.st (heldArgs h pars niter bc tid) = (s', none) := hs'
        rw [hs'']
        refine ⟨?_, ?_⟩
        · simpa [toSys, List.eraseIdx_map] using hI
        · intro h' hh'
          apply G
          have : h' ∈ (y.out.map fun h => (⟨h.active, h.fixed.getD []⟩ : SuperScene.Held K)).eraseIdx j := by
            rw [List.eraseIdx_map]; exact hh'
          exact List.mem_of_mem_eraseIdx this
      · exact ⟨H, G⟩

theorem Nice.run_inv (N : Nice E cfg roi n) (s0 : State K B C) (ops : List (Op K B C)) :
    ∀ y : Sys K B C, SInv n (toSys y) → Closed (clip n (adjOf E cfg s0)) (toSys y) →
      SInv n (toSys (run E cfg y ops)) := by
  induction ops with
  | nil => intro y H _; exact H
  | cons op t ih =>
    intro y H G
    obtain ⟨H', G'⟩ := N.step_inv y s0 H G op
    exact ih _ H' G'

end nice

end Forcepho.Linked
