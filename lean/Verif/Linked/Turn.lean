import Verif.Linked.Order
import Verif.SuperScene.Turn

/-!
# C121 for linked regions: every source gets its turn

With `LinkedSuperScene` (superscene.py:495-748) a region is grown around the seed in order of
separation, so the seed itself is always active.  Whatever the workers return, checking regions
out and in from every seed often enough brings every source to the target.
-/

set_option autoImplicit false
set_option linter.unusedSectionVars false

namespace Forcepho.Linked

open Forcepho.SuperScene

section
variable {K B C P : Type} [Field K] [LinearOrder K]

/-- The filling loop always ends when every group can be grown. -/
theorem fillActive_total (grow : Nat → Option (List Nat)) (maxactive : Nat) (strict : Bool) :
    ∀ (cands act : List Nat), (∀ c ∈ cands, ∃ g, grow c = some g) →
      ∃ res, fillActive grow maxactive strict cands act = some res := by
  intro cands
  induction cands with
  | nil => intro act _; exact ⟨act, rfl⟩
  | cons c t ih =>
    intro act h
    have ht : ∀ x ∈ t, ∃ g, grow x = some g := fun x hx => h x (List.mem_cons_of_mem _ hx)
    obtain ⟨g, hg⟩ := h c (by simp)
    rw [fillActive]
    split
    · exact ih act ht
    · simp only [hg]
      split
      · split <;> exact ⟨_, rfl⟩
      · exact ih _ ht

/-- With a symmetric overlap relation the filling loop never takes a source twice. -/
theorem fillActive_nodup {adj : Nat → List Nat} {n fuel maxactive : Nat} {strict : Bool}
    (hadj : ∀ i, (adj i).Nodup) (hlt : ∀ i, ∀ j ∈ adj i, j < n) (hf : n < fuel)
    (hsym : ∀ i j, i < n → j ∈ adj i → i ∈ adj j) :
    ∀ (cands act res : List Nat), (∀ c ∈ cands, c < n) → (∀ x ∈ act, x < n) → act.Nodup →
      (∀ x ∈ act, ∀ z ∈ adj x, z ∈ act) →
      fillActive (growSource adj fuel) maxactive strict cands act = some res →
      res.Nodup ∧ ∀ x ∈ res, x < n := by
  intro cands
  induction cands with
  | nil =>
    intro act res _ ha hn _ h
    simp only [fillActive, Option.some.injEq] at h
    subst h; exact ⟨hn, ha⟩
  | cons c t ih =>
    intro act res hc ha hn hcl h
    have hct : ∀ x ∈ t, x < n := fun x hx => hc x (List.mem_cons_of_mem _ hx)
    rw [fillActive] at h
    split at h
    · exact ih act res hct ha hn hcl h
    · rename_i hca
      obtain ⟨g, hg, hgn, hgl, hgm⟩ := growSource_spec hadj hlt (hc c (by simp)) hf
      have hdis : ∀ x ∈ act, x ∉ g := by
        intro x hx hxg
        have hcon := (hgm x).1 hxg
        have hcn : c < n := hc c (by simp)
        apply hca
        clear h hg hgm hca hc
        induction hcon using Relation.ReflTransGen.head_induction_on with
        | refl => exact hx
        | @head a b hab _ ihb =>
          have hb : b < n := hlt a b hab
          exact hcl b (ihb hb) a (hsym a b hcn hab)
      simp only [hg] at h
      split at h
      · split at h
        · obtain rfl := Option.some.inj h
          refine ⟨List.nodup_append.2 ⟨hn, hgn.sublist (List.take_sublist _ _), ?_⟩, ?_⟩
          · intro x hx z hz he
            exact hdis x hx (he ▸ List.mem_of_mem_take hz)
          · intro x hx
            rcases List.mem_append.1 hx with h | h
            · exact ha x h
            · exact hgl x (List.mem_of_mem_take h)
        · obtain rfl := Option.some.inj h; exact ⟨hn, ha⟩
      · refine ih _ res hct ?_ ?_ ?_ h
        · intro x hx
          rcases List.mem_append.1 hx with h | h
          · exact ha x h
          · exact hgl x h
        · exact List.nodup_append.2 ⟨hn, hgn, fun x hx z hz he => hdis x hx (he ▸ hz)⟩
        · intro x hx z hz
          rcases List.mem_append.1 hx with h | h
          · exact List.mem_append_left _ (hcl x h z hz)
          · exact List.mem_append_right _ ((hgm z).2 (((hgm x).1 h).tail hz))

/-- A region can be grown around any seed when no source is active. -/
theorem growScene_turn [IsStrictOrderedRing K] (E : Env P K) (cfg : Config K)
    (s : State K B C) (hE : E.OK s.rows.length) (seed : Nat) (mf : Option Nat)
    (hs : seed < s.rows.length) (hm : 1 ≤ cfg.maxactive)
    (hR : ∀ i, 0 < cfg.boundaryRadius + roiOf cfg s i) (hb : 0 ≤ cfg.boundaryRadius)
    (hd : ∀ p i, 0 ≤ E.dist p i) (h0 : E.dist (E.coord seed) seed = 0)
    (hna : ∀ j, activeOf s j = false) :
    ∃ radius act fix, growScene E cfg s seed mf = .ok (some (radius, act, fix)) := by
  have hball : seed ∈ E.ball (E.coord seed) (cfg.boundaryRadius + cfg.boundaryRadius) :=
    (hE.mem_ball _ _ _).2 ⟨hs, by rw [h0]; exact add_nonneg hb hb⟩
  have hmem := fun i => mem_findOverlaps_touches hE cfg s (E.coord seed) cfg.boundaryRadius true i
    (hd _ _) (hR i)
  have hsc : seed ∈ findOverlaps E cfg s (E.coord seed) cfg.boundaryRadius none true :=
    (hmem seed).2 ⟨hs, by rw [h0]; exact add_nonneg hb hb, by rw [h0]; exact hR seed⟩
  have hlt : ∀ c ∈ findOverlaps E cfg s (E.coord seed) cfg.boundaryRadius none true,
      c < s.rows.length := fun c hc => ((hmem c).1 hc).1
  obtain ⟨act, hfill⟩ := fillActive_total (growSource (adjOf E cfg s) (s.rows.length + 1))
    cfg.maxactive cfg.strict (findOverlaps E cfg s (E.coord seed) cfg.boundaryRadius none true) []
    (fun c hc => by
      obtain ⟨g, hg, _⟩ := growSource_spec (adjOf_nodup hE cfg s) (adjOf_lt hE cfg s) (hlt c hc)
        (Nat.lt_succ_self _)
      exact ⟨g, hg⟩)
  have hne : act ≠ [] := by
    rintro rfl
    obtain ⟨_, k⟩ := fillActive_order (adjOf_nodup hE cfg s) (adjOf_lt hE cfg s)
      (Nat.lt_succ_self _) _ _ _ hlt (Nat.zero_le _) hfill
    rcases k with ⟨k, _⟩ | ⟨pre, d, post, e, k1, _, k3, k4⟩
    · exact absurd (k seed hsc) (by simp)
    · cases pre with
      | cons x xs => exact absurd (k1 x (by simp)) (by simp)
      | nil => exact absurd (k4 rfl rfl hm) (by simp)
  unfold growScene
  rw [if_neg (fun h => by rw [h] at hball; simp at hball)]
  simp only
  rw [if_neg (by simp [hna])]
  rw [hfill]
  simp only
  cases act with
  | nil => exact absurd rfl hne
  | cons a t => exact ⟨_, _, _, rfl⟩

/-- C121 for a linked region: when no source is active, a checkout seeded on any source succeeds
and that source is then active and among the rows handed out.  Missing from the full claim: other
sources at exactly the same place (`C105_seed_refuted`). -/
theorem C121_linked_turn_partial [IsStrictOrderedRing K] (E : Env P K) (cfg : Config K)
    (s : State K B C) (hE : E.OK s.rows.length) (seed : Nat) (mf : Option Nat)
    (hs : seed < s.rows.length) (hm : 1 ≤ cfg.maxactive)
    (hR : ∀ i, 0 < cfg.boundaryRadius + roiOf cfg s i) (hb : 0 ≤ cfg.boundaryRadius)
    (hd : ∀ p i, 0 ≤ E.dist p i) (h0 : E.dist (E.coord seed) seed = 0)
    (hne : ∀ i, i < s.rows.length → i ≠ seed → 0 < E.dist (E.coord seed) i)
    (hna : ∀ q ∈ s.rows, q.isActive = false) :
    ∃ s' actRows fixRows, checkout E cfg s seed mf = (s', .ok (some (actRows, fixRows))) ∧
      ∃ r : Row K, s'.rows[seed]? = some r ∧ r.isActive = true ∧ r ∈ actRows := by
  have hact : ∀ j, activeOf s j = false := by
    intro j
    unfold activeOf
    split
    · rename_i q hq; exact hna q (List.mem_of_getElem? hq)
    · rfl
  obtain ⟨radius, act, fix, hg⟩ := growScene_turn E cfg s hE seed mf hs hm hR hb hd h0 hact
  have hco : ∃ s' a f, checkout E cfg s seed mf = (s', .ok (some (a, f))) := by
    unfold checkout
    rw [if_neg (by omega), hg]
    exact ⟨_, _, _, rfl⟩
  obtain ⟨s', a, f, hco⟩ := hco
  have := C105_seed_partial E cfg s hE seed mf a f hR hb hd h0 hne (by rw [hco])
  rw [hco] at this
  exact ⟨s', a, f, hco, this⟩

/-! ## Finishing -/

/-- One turn of a driver with one worker: check out a region seeded on `k`; if one was handed out,
return it with the parameters the worker `w` computed and `d` iterations. -/
def turn (E : Env P K) (cfg : Config K) (w : Held K → List (Params K)) (d : Int) (y : Sys K B C)
    (k : Nat) : Sys K B C :=
  match (step E cfg y (.checkout k none)).out with
  | [] => step E cfg y (.checkout k none)
  | h :: _ => step E cfg (step E cfg y (.checkout k none)) (.checkin 0 (w h) d none none)

/-- Between turns: nothing is out, no row is active, row `i` has index `i`. -/
structure Idle (n : Nat) (y : Sys K B C) : Prop where
  len : y.st.rows.length = n
  out : y.out = []
  index : ∀ (i : Nat) (r : Row K), y.st.rows[i]? = some r → r.sourceIndex = i
  rest : ∀ (i : Nat) (r : Row K), y.st.rows[i]? = some r → r.isActive = false

/-- The sources are at distinct places and distances vanish on the source itself. -/
structure Distinct (E : Env P K) (n : Nat) : Prop where
  self : ∀ i, i < n → E.dist (E.coord i) i = 0
  apart : ∀ i j, i < n → j < n → j ≠ i → 0 < E.dist (E.coord i) j

theorem turn_spec [IsStrictOrderedRing K] {E : Env P K} {cfg : Config K} {roi : Nat → K} {n : Nat}
    (G : Geo E cfg roi n) (D : Distinct E n) (hm : 1 ≤ cfg.maxactive)
    (hb : 0 < cfg.boundaryRadius) (w : Held K → List (Params K))
    (hw : ∀ h, (w h).length = h.active.length) (d : Int) (hd : 0 ≤ d) (y : Sys K B C)
    (Y : Idle n y) (k : Nat) (hk : k < n) :
    Idle n (turn E cfg w d y k) ∧
    ∀ (i : Nat) (r : Row K), y.st.rows[i]? = some r →
      ∃ r' : Row K, (turn E cfg w d y k).st.rows[i]? = some r' ∧
        r.nIter + (if i = k then d else 0) ≤ r'.nIter := by
  obtain ⟨hl, ho, hix, hrest⟩ := Y
  have hE : E.OK y.st.rows.length := hl ▸ G.ok
  have hroi : ∀ i, roiOf cfg y.st i = roi i := by intro i; simp [roiOf, G.roi_eq]
  have hR : ∀ i, 0 < cfg.boundaryRadius + roiOf cfg y.st i := by
    intro i; rw [hroi]; exact add_pos_of_pos_of_nonneg hb (G.roi_nonneg i)
  have hact : ∀ j, activeOf y.st j = false := by
    intro j
    unfold activeOf
    split
    · rename_i q hq; exact hrest j q hq
    · rfl
  obtain ⟨radius, act, fix, hg⟩ := growScene_turn E cfg y.st hE k none (by omega) hm hR hb.le
    G.dist_nonneg (D.self k hk) hact
  obtain ⟨_, hfill, hane, _, _, hfix⟩ := growScene_some hg
  have hlt : ∀ c ∈ findOverlaps E cfg y.st (E.coord k) cfg.boundaryRadius none true, c < n :=
    fun c hc => ((mem_findOverlaps G.ok _ _ _ _ _ _ _).1 hc).1
  obtain ⟨hnd, han⟩ := fillActive_nodup (adjOf_nodup G.ok cfg y.st) (adjOf_lt G.ok cfg y.st)
    (by omega) (fun i j hi h => G.symm y.st i j hi h) _ [] act hlt (by simp) List.nodup_nil
    (by simp) hfill
  have hfn : ∀ i ∈ fix, i < n := by
    intro i hi
    rw [hfix] at hi
    exact ((mem_findOverlaps G.ok _ _ _ _ _ _ _).1
      (List.mem_filter.1 (List.mem_of_mem_take hi)).1).1
  set rows3 := updAt (updAt (updAt y.st.rows act fun r => { r with isActive := true }) act
      fun r => { r with isValid := false }) fix fun r => { r with isValid := false } with hrows3
  set h : Held K := ⟨takeRows rows3 act,
    if fix.length = 0 then none else some (takeRows y.st.rows fix)⟩ with hh
  have hst : step E cfg y (.checkout k none) = Sys.mk ({ y.st with
        rows := rows3,
        nActive := y.st.nActive + act.length,
        nFixed := y.st.nFixed + fix.length } : State K B C) [h] := by
    simp only [step, checkout]
    rw [if_neg (by omega), hg]
    simp only [ho, List.nil_append]
    rfl
  have hidx : h.active.map (·.sourceIndex) = act :=
    takeRows_idx (rows3_idx y.st.rows act fix hix) act (fun j hj => by
      have := han j hj
      simpa [hl] using this)
  have hin : k ∈ act := by
    obtain ⟨r, hr, hra, hrm⟩ := C105_seed_partial E cfg y.st hE k none h.active h.fixed hR hb.le
      G.dist_nonneg (D.self k hk) (fun i hi hik => D.apart k i hk (hl ▸ hi) hik) (by
        simp only [checkout]
        rw [if_neg (by omega), hg])
    rw [← hidx]
    have hrk : r.sourceIndex = k := by
      have hc : (checkout E cfg y.st k none).1.rows = rows3 := by
        simp only [checkout]
        rw [if_neg (by omega), hg]
      rw [hc] at hr
      exact rows3_idx y.st.rows act fix hix k r hr
    rw [← hrk]
    exact List.mem_map_of_mem hrm
  have hturn : turn E cfg w d y k = step E cfg (Sys.mk ({ y.st with
        rows := rows3,
        nActive := y.st.nActive + act.length,
        nFixed := y.st.nFixed + fix.length } : State K B C) [h]) (.checkin 0 (w h) d none none) := by
    simp only [turn, hst]
  have c1 : (heldArgs h (w h) d none none : CheckinArgs K B C).actIdx = act := by
    rw [← hidx]; exact map_zipWith_par _ _ (hw h)
  have c2 : ∀ i ∈ (heldArgs h (w h) d none none : CheckinArgs K B C).fixIdx, i < n := by
    intro i hi
    simp only [heldArgs, CheckinArgs.fixIdx, hh] at hi
    split at hi
    · rename_i f hf
      split at hf
      · cases hf
      · obtain rfl := Option.some.inj hf
        rw [takeRows_idx hix fix (fun j hj => by rw [hl]; exact hfn j hj)] at hi
        exact hfn i hi
    · simp at hi
  have hlen3 : rows3.length = n := by simp [hrows3, hl]
  obtain ⟨s', hs, hl', hrows, _⟩ := checkin_ok ({ y.st with
        rows := rows3
        nActive := y.st.nActive + act.length
        nFixed := y.st.nFixed + fix.length } : State K B C)
    (heldArgs h (w h) d none none)
    (by rw [c1]; intro i hi; show i < rows3.length; rw [hlen3]; exact han i hi)
    (by intro i hi; show i < rows3.length; rw [hlen3]; exact c2 i hi)
    (by rw [c1]; exact hnd) (by simp [heldArgs])
  have hst2 : turn E cfg w d y k = { st := s', out := [] } := by
    rw [hturn]
    simp only [step, List.getElem?_cons_zero, hs]
    rw [if_pos (hw h)]
    rfl
  have hl'' : s'.rows.length = n := by rw [hl']; exact hlen3
  have hrow3 : ∀ (i : Nat) (r : Row K), y.st.rows[i]? = some r →
      ∃ r3 : Row K, rows3[i]? = some r3 ∧ r3.nIter = r.nIter ∧ r3.sourceIndex = r.sourceIndex ∧
        (i ∉ act → r3.isActive = r.isActive) := by
    intro i r hi
    rw [hrows3, rows3_getElem?, hi]
    exact ⟨_, rfl, rfl, rfl, fun h => by simp [h]⟩
  have hback : ∀ (i : Nat) (r : Row K), s'.rows[i]? = some r →
      ∃ q : Row K, y.st.rows[i]? = some q := by
    intro i r hr
    have : i < s'.rows.length := (List.getElem?_eq_some_iff.1 hr).1
    exact ⟨_, List.getElem?_eq_getElem (by rw [hl, ← hl'']; exact this)⟩
  rw [hst2]
  refine ⟨⟨hl'', rfl, ?_, ?_⟩, ?_⟩
  · intro i r hr
    obtain ⟨q, hq⟩ := hback i r hr
    obtain ⟨r3, h3, _, h3s, _⟩ := hrow3 i q hq
    have e := hrows i r3 h3
    have : r = _ := Option.some.inj ((show s'.rows[i]? = some r from hr).symm.trans e)
    rw [this]
    show r3.sourceIndex = i
    rw [h3s]; exact hix i q hq
  · intro i r hr
    obtain ⟨q, hq⟩ := hback i r hr
    obtain ⟨r3, h3, _, _, h3a⟩ := hrow3 i q hq
    have e := hrows i r3 h3
    have : r = _ := Option.some.inj ((show s'.rows[i]? = some r from hr).symm.trans e)
    rw [this, c1]
    show (if i ∈ act then false else r3.isActive) = false
    split
    · rfl
    · rename_i hia; rw [h3a hia]; exact hrest i q hq
  · intro i r hi
    obtain ⟨r3, h3, h3n, _⟩ := hrow3 i r hi
    refine ⟨_, hrows i r3 h3, ?_⟩
    rw [c1]
    show _ ≤ if i ∈ act then r3.nIter + d else r3.nIter
    rw [h3n]
    by_cases hik : i = k
    · subst hik; rw [if_pos rfl, if_pos hin]
    · rw [if_neg hik]; split <;> omega

theorem turns_spec [IsStrictOrderedRing K] {E : Env P K} {cfg : Config K} {roi : Nat → K} {n : Nat}
    (G : Geo E cfg roi n) (D : Distinct E n) (hm : 1 ≤ cfg.maxactive)
    (hb : 0 < cfg.boundaryRadius) (w : Held K → List (Params K))
    (hw : ∀ h, (w h).length = h.active.length) (d : Int) (hd : 0 ≤ d) (seeds : List Nat) :
    (∀ k ∈ seeds, k < n) → ∀ y : Sys K B C, Idle n y →
    Idle n (seeds.foldl (turn E cfg w d) y) ∧
    ∀ (i : Nat) (r : Row K), y.st.rows[i]? = some r →
      ∃ r' : Row K, (seeds.foldl (turn E cfg w d) y).st.rows[i]? = some r' ∧
        r.nIter + d * seeds.count i ≤ r'.nIter := by
  induction seeds with
  | nil => intro _ y Y; exact ⟨Y, fun i r hr => ⟨r, hr, by simp⟩⟩
  | cons k t ih =>
    intro hs y Y
    obtain ⟨Z, hz⟩ := turn_spec G D hm hb w hw d hd y Y k (hs k (by simp))
    obtain ⟨Z', hz'⟩ := ih (fun j hj => hs j (by simp [hj])) _ Z
    refine ⟨Z', ?_⟩
    intro i r hi
    obtain ⟨r1, a1, a2⟩ := hz i r hi
    obtain ⟨r2, b1, b2⟩ := hz' i r1 a1
    refine ⟨r2, b1, ?_⟩
    rw [List.count_cons]
    by_cases hik : i = k
    · subst hik
      rw [if_pos rfl] at a2
      simp only [beq_self_eq_true, if_true]
      push_cast
      rw [mul_add, mul_one]
      omega
    · rw [if_neg hik] at a2
      have : (k == i) = false := by simpa using fun h : k = i => hik h.symm
      rw [this]
      simp only [Bool.false_eq_true, if_false, Nat.add_zero]
      omega

/-- C121 for linked regions: with fixed radii of influence no larger than the boundary radius, at
least one active slot and sources at distinct places, whatever the worker returns, any sequence of
turns in which every source is the seed often enough to reach the target brings every source to
it; no region is left out and no source left active.  Missing from the full claim: radii of
influence taken from the changing `rhalf` column, and coincident sources. -/
theorem C121_linked_finish_partial [IsStrictOrderedRing K] (E : Env P K) (cfg : Config K)
    (roi : Nat → K) (cat : List (Row K)) (G : Geo E cfg roi cat.length)
    (D : Distinct E cat.length) (hm : 1 ≤ cfg.maxactive) (hb : 0 < cfg.boundaryRadius)
    (bounds : List B) (one : C) (hcat : ∀ r ∈ cat, 0 ≤ r.nIter)
    (w : Held K → List (Params K)) (hw : ∀ h, (w h).length = h.active.length)
    (d : Int) (hd : 0 ≤ d) (target : Int) (seeds : List Nat) (hs : ∀ k ∈ seeds, k < cat.length)
    (henough : ∀ i, i < cat.length → target ≤ d * seeds.count i) :
    let y := seeds.foldl (turn E cfg w d) (fresh cat bounds one)
    y.out = [] ∧ y.st.rows.length = cat.length ∧
    ∀ r ∈ y.st.rows, target ≤ |r.nIter| ∧ r.isActive = false := by
  intro y
  have Y : Idle cat.length (fresh cat bounds one) := by
    refine ⟨by simp [fresh, ingest], rfl, ?_, ?_⟩ <;>
    · intro i r hr
      simp only [fresh, ingest, List.getElem?_mapIdx, Option.map_eq_some_iff] at hr
      obtain ⟨q, _, rfl⟩ := hr
      rfl
  obtain ⟨Z, hz⟩ := turns_spec G D hm hb w hw d hd seeds hs _ Y
  refine ⟨Z.out, Z.len, ?_⟩
  intro r hr
  obtain ⟨i, hi, rfl⟩ := List.mem_iff_getElem.1 hr
  have hi0 : i < cat.length := by rw [← Z.len]; exact hi
  have hif : i < (fresh cat bounds one).st.rows.length := by rw [Y.len]; exact hi0
  obtain ⟨r', a1, a2⟩ := hz i _ (List.getElem?_eq_getElem hif)
  have a1' : y.st.rows[i]? = some r' := a1
  rw [List.getElem?_eq_getElem hi, Option.some.injEq] at a1'
  have hc : 0 ≤ ((fresh cat bounds one).st.rows[i]).nIter := by
    simp only [fresh, ingest, List.getElem_mapIdx]
    exact hcat _ (List.getElem_mem _)
  refine ⟨?_, Z.rest i _ (List.getElem?_eq_getElem hi)⟩
  have := henough i hi0
  rw [a1']
  exact le_trans (by omega) (le_abs_self _)

end

/-! ## Witnesses -/

/-- Case for C121: two pairs of sources; after two turns seeded on each source with three draws each,
every source has at least the six iterations asked for (here twelve, two sources per region). -/
example : Geo (lineEnv pos4) (cfgL true) (fun _ => 3) 4 ∧ Distinct (lineEnv pos4) 4 ∧
    1 ≤ (cfgL true).maxactive ∧ 0 < (cfgL true).boundaryRadius ∧
    ([0, 1, 2, 3, 0, 1, 2, 3].foldl (turn (lineEnv pos4) (cfgL true)
      (fun h => h.active.map (·.par)) 3) (fresh cat4 [0, 0, 0, 0] 1 : Sys ℚ Nat Nat)).st.rows.map
        (·.nIter) = [12, 12, 12, 12] := by
  refine ⟨nice4.toGeo, ⟨?_, ?_⟩, by decide, by decide +kernel, by decide +kernel⟩
  · decide +kernel
  · intro i j hi hj
    interval_cases i <;> interval_cases j <;> decide +kernel

end Forcepho.Linked
