import Verif.SuperScene.Props
import Mathlib.Algebra.Order.Ring.Int
import Mathlib.Tactic.Ring
import Mathlib.Tactic.Linarith
import Mathlib.Tactic.IntervalCases

/-!
# C121 for circular regions: does every source get its turn?

`do_parent` keeps drawing seeds while `undone` (dispatcher.py:190-230).  A run can only finish if
every source can become active.  With circular regions (`get_circular_scene`,
superscene.py:372-440) a source is active only if its distance from the seed plus
`nscale * rhalf` is below `maxradius`, so a source with a large half-light radius never is.
-/

set_option autoImplicit false
set_option linter.unusedSectionVars false

namespace Forcepho.SuperScene

variable {K B C : Type} [CommRing K] [LinearOrder K] [IsStrictOrderedRing K]

/-! ## Sources that never get a turn -/

/-- What stays true of a source that is too large. -/
structure Starved (y : Sys K B C) (i : Nat) (it : Int) (p : Params K) : Prop where
  row : ∃ r : Row K, y.st.rows[i]? = some r ∧ r.nIter = it ∧ r.par = p ∧ r.isActive = false
  held : ∀ h ∈ y.out, i ∉ h.actIdx

theorem Starved.step {E : Env K} {cfg : Config K} {n : Nat} (hE : E.OK n)
    (hd : ∀ c j, 0 ≤ E.dist c j) {y : Sys K B C} (H : SInv n y) {i : Nat} {it : Int}
    {p : Params K} (hbig : cfg.maxradius ≤ cfg.nscale * p.rhalf) (S : Starved y i it p)
    (op : Op K B C) :
    Starved (step E cfg y op).1 i it p ∧ ∀ e, (step E cfg y op).2 = some e → i ∉ e.active := by
  obtain ⟨⟨r, hr, h1, h2, h3⟩, hh⟩ := S
  cases op with
  | checkout k =>
    rcases checkout_cases E cfg y.st k with ⟨e, h⟩ | h | ⟨seed, radius, act, fix, hk, hg, h⟩
    · rw [show SuperScene.step E cfg y (.checkout k) = (y, none) by simp [SuperScene.step, h]]
      exact ⟨⟨⟨r, hr, h1, h2, h3⟩, hh⟩, by simp⟩
    · rw [show SuperScene.step E cfg y (.checkout k) = (y, none) by simp [SuperScene.step, h]]
      exact ⟨⟨⟨r, hr, h1, h2, h3⟩, hh⟩, by simp⟩
    · have hrad := (C09_radius E cfg n hE y.st _ radius act fix hg).2.2.2.1
      have hni : i ∉ act := by
        intro hi
        have : E.dist (seed.par.ra, seed.par.dec) i + cfg.nscale * rhalfOf y.st i < cfg.maxradius :=
          hrad i hi
        have hrh : rhalfOf y.st i = p.rhalf := by simp [rhalfOf, hr, h2]
        rw [hrh] at this
        exact absurd this (not_lt.2 (le_trans hbig (le_add_of_nonneg_left (hd _ _))))
      have hlt : ∀ j ∈ act, j < y.st.rows.length := by
        intro j hj
        rw [H.len]
        exact ((C08_sizes E cfg n hE y.st _ radius act fix hg).2.2.2.2.1 j
          (List.mem_append_left _ hj)).1
      simp only [SuperScene.step, h]
      refine ⟨⟨?_, ?_⟩, by simp⟩
      · rw [rows3_getElem?, hr]
        exact ⟨_, rfl, h1, h2, by simp [hni, h3]⟩
      · intro g hgm
        rw [List.mem_append, List.mem_singleton] at hgm
        rcases hgm with hgm | rfl
        · exact hh g hgm
        · have := takeRows_idx (rows3_idx y.st.rows act fix H.index) act
            (fun j hj => by simpa using hlt j hj)
          simp only [Held.actIdx]
          rw [this]
          exact hni
  | checkin j pars niter bc nb tid =>
    rcases step_checkin_cases (E := E) (cfg := cfg) y H j pars niter bc nb tid with
      h | ⟨h, hj, hp, hb, s', hs, hst⟩
    · rw [h]; exact ⟨⟨⟨r, hr, h1, h2, h3⟩, hh⟩, by simp⟩
    obtain ⟨c1, c2, c3, c4, c5, c6⟩ := checkin_held y H j h hj pars niter bc nb tid hp hb
    obtain ⟨s2, hs2, hlen, hrows, _⟩ := checkin_ok y.st (heldArgs h pars niter bc nb tid)
        (by rw [c1]; exact c3) (by rw [c2]; exact c4) (by rw [c1]; exact c5) c6
    obtain rfl : s2 = s' := by rw [hs2] at hs; exact (Prod.mk.inj hs).1
    have hni : i ∉ h.actIdx := hh h (List.mem_of_getElem? hj)
    have hnf : (heldArgs h pars niter bc nb tid : CheckinArgs K B C).active.find?
        (fun r => r.sourceIndex = i) = none := by
      rw [List.find?_eq_none]
      intro x hx hxi
      apply hni
      rw [← c1]
      have hxi' : x.sourceIndex = i := by simpa using hxi
      rw [← hxi']
      exact List.mem_map_of_mem hx
    rw [hst]
    refine ⟨⟨⟨_, hrows i r hr, ?_, ?_, ?_⟩, ?_⟩, ?_⟩
    · rw [c1]; simp [hni, h1]
    · simp only [hnf]; exact h2
    · rw [c1]; simp [hni, h3]
    · intro g hg; exact hh g (List.mem_of_mem_eraseIdx hg)
    · intro e he
      obtain rfl := Option.some.inj he
      exact hni

theorem Starved.run {E : Env K} {cfg : Config K} {n : Nat} (hE : E.OK n)
    (hd : ∀ c j, 0 ≤ E.dist c j) {i : Nat} {it : Int}
    {p : Params K} (hbig : cfg.maxradius ≤ cfg.nscale * p.rhalf) (ops : List (Op K B C)) :
    ∀ {y : Sys K B C}, SInv n y → Starved y i it p →
    Starved (run E cfg y ops).1 i it p ∧ ∀ e ∈ (run E cfg y ops).2, i ∉ e.active := by
  induction ops with
  | nil => intro y _ S; exact ⟨S, by simp [SuperScene.run]⟩
  | cons op t ih =>
    intro y H S
    obtain ⟨S1, e1⟩ := S.step hE hd H hbig op
    obtain ⟨S2, e2⟩ := ih (inv_step hE y H op) S1
    refine ⟨S2, ?_⟩
    intro e he
    simp only [SuperScene.run, List.mem_append, Option.mem_toList] at he
    rcases he with he | he
    · exact e1 e he
    · exact e2 e he

/-- C121 is false of circular regions.  A source whose half-light radius times `nscale` is at
least `maxradius` is never active, whatever is checked out and whatever the workers return: it is
in no completed check-in, its iteration count and its parameters never change, and if it started
below the target the run never reaches its stopping condition. -/
theorem C121_starved_refuted (E : Env K) (cfg : Config K) (cat : List (Row K))
    (hE : E.OK cat.length) (hd : ∀ c j, 0 ≤ E.dist c j) (bounds : List B) (one : C)
    (i : Nat) (r0 : Row K) (h0 : cat[i]? = some r0)
    (hbig : cfg.maxradius ≤ cfg.nscale * r0.par.rhalf) (ops : List (Op K B C)) :
    (∀ e ∈ (run E cfg (fresh cat bounds one) ops).2, i ∉ e.active) ∧
    (∃ r : Row K, (run E cfg (fresh cat bounds one) ops).1.st.rows[i]? = some r ∧
      r.nIter = r0.nIter ∧ r.par = r0.par ∧ r.isActive = false) ∧
    (|r0.nIter| < cfg.targetNiter →
      undone cfg (run E cfg (fresh cat bounds one) ops).1.st = true) := by
  have S0 : Starved (fresh cat bounds one) i r0.nIter r0.par := by
    refine ⟨⟨{ r0 with sourceIndex := i, isValid := true, isActive := false },
      by simp [fresh, ingest, h0], rfl, rfl, rfl⟩, by simp [fresh]⟩
  obtain ⟨⟨⟨r, hr, h1, h2, h3⟩, _⟩, he⟩ := S0.run hE hd hbig ops (inv_fresh cat bounds one)
  refine ⟨he, ⟨r, hr, h1, h2, h3⟩, ?_⟩
  intro hlt
  rw [← Bool.not_eq_false, C11_done_iff]
  intro h
  have := h r (List.mem_of_getElem? hr)
  rw [h1] at this
  omega

/-! ## Sources that do -/

/-- The other candidate sources around the seed `k` whose outer extent does not exceed that of `k`
are fewer than the slots for active sources. -/
def Uncrowded (E : Env K) (cfg : Config K) (n : Nat) (rh : Nat → K) (c : K × K) (k : Nat) : Prop :=
  ∀ L : List Nat, L.Nodup →
    (∀ j ∈ L, j < n ∧ j ≠ k ∧ E.dist c j ≤ cfg.boundaryRadius ∧
      E.dist c j + cfg.nscale * rh j ≤ E.dist c k + cfg.nscale * rh k) →
    L.length < cfg.maxactive

theorem circular_turn {E : Env K} {cfg : Config K} {n : Nat} (hE : E.OK n) (s : State K B C)
    (c : K × K) (k : Nat) (hk : k < n) (hdk : E.dist c k ≤ cfg.boundaryRadius)
    (hok : E.dist c k + cfg.nscale * rhalfOf s k < cfg.maxradius)
    (hfew : Uncrowded E cfg n (rhalfOf s) c k) (hna : ∀ j, activeOf s j = false) :
    ∃ radius act fix, getCircularScene E cfg s c = .ok (some (radius, act, fix)) ∧ k ∈ act := by
  have hm : 0 < cfg.maxactive := hfew [] List.nodup_nil (by simp)
  obtain ⟨radius, act, fix, hg⟩ := (C10_when E cfg n hE s c).2.2.2.2
    ⟨fun j _ => hna j, hm, k, ⟨hk, hdk⟩, hok⟩
  refine ⟨radius, act, fix, hg, ?_⟩
  obtain ⟨_, hlen, _, hnd, hmem, _⟩ := C08_sizes E cfg n hE s c radius act fix hg
  obtain ⟨_, _, _, _, hsm, hall, _⟩ := C09_radius E cfg n hE s c radius act fix hg
  rcases Nat.lt_or_eq_of_le hlen with hl | hl
  · exact hall hl k hk hdk hok
  · by_contra hkn
    have := hfew act (List.nodup_append.1 hnd).1 (by
      intro j hj
      have hj' := hmem j (List.mem_append_left _ hj)
      exact ⟨hj'.1, fun h => hkn (h ▸ hj), hj'.2, hsm j hj k hk hdk hkn⟩)
    omega

/-- C121 for a circular region: when no source is active, a source within the boundary radius of
its own current position, not too large, and with fewer smaller neighbours than active slots, is
made active by a checkout seeded on it.  Missing from the full claim: sources that are too large
(`C121_starved_refuted`) or in crowded places (`C121_crowded_refuted`). -/
theorem C121_circular_turn_partial (E : Env K) (cfg : Config K) (s : State K B C)
    (hE : E.OK s.rows.length) (k : Nat) (r : Row K) (hr : s.rows[k]? = some r)
    (hdk : E.dist (r.par.ra, r.par.dec) k ≤ cfg.boundaryRadius)
    (hok : E.dist (r.par.ra, r.par.dec) k + cfg.nscale * r.par.rhalf < cfg.maxradius)
    (hfew : Uncrowded E cfg s.rows.length (rhalfOf s) (r.par.ra, r.par.dec) k)
    (hna : ∀ q ∈ s.rows, q.isActive = false) :
    ∃ s' c radius act fix, checkout E cfg s k = (s', .region c radius act fix) ∧
      ∃ q : Row K, s'.rows[k]? = some q ∧ q.isActive = true ∧ q ∈ act := by
  have hk : k < s.rows.length := (List.getElem?_eq_some_iff.1 hr).1
  have hact : ∀ j, activeOf s j = false := by
    intro j
    unfold activeOf
    split
    · rename_i q hq; exact hna q (List.mem_of_getElem? hq)
    · rfl
  obtain ⟨radius, act, fix, hg, hin⟩ := circular_turn hE s _ k hk hdk
    (by simpa [rhalfOf, hr] using hok) hfew hact
  simp only [checkout, hr, hg]
  refine ⟨_, _, _, _, _, rfl, ?_⟩
  have : ∃ q : Row K, (updAt (updAt (updAt s.rows act fun r => { r with isActive := true }) act
      fun r => { r with isValid := false }) fix fun r => { r with isValid := false })[k]?
      = some q ∧ q.isActive = true := by
    rw [rows3_getElem?, hr]
    exact ⟨_, rfl, by simp [hin]⟩
  obtain ⟨q, hq, hqa⟩ := this
  exact ⟨q, hq, hqa, (mem_takeRows _ _ _).2 ⟨k, hin, hq⟩⟩

/-! ## Finishing -/

/-- Between rounds: nothing is out, and the parameters are those the run started with. -/
structure Ready (n : Nat) (rows0 : List (Row K)) (y : Sys K B C) : Prop where
  inv : SInv n y
  out : y.out = []
  par : ∀ i : Nat, (y.st.rows[i]?).map (·.par) = (rows0[i]?).map (·.par)

/-- Every source is within reach of a region seeded on it: near its listed position, small enough,
and not crowded. -/
def Reachable (E : Env K) (cfg : Config K) (rows : List (Row K)) : Prop :=
  ∀ (k : Nat) (r : Row K), rows[k]? = some r →
    E.dist (r.par.ra, r.par.dec) k ≤ cfg.boundaryRadius ∧
    E.dist (r.par.ra, r.par.dec) k + cfg.nscale * r.par.rhalf < cfg.maxradius ∧
    Uncrowded E cfg rows.length
      (fun j => ((rows[j]?).map fun q : Row K => q.par.rhalf).getD 0) (r.par.ra, r.par.dec) k

theorem rhalfOf_eq (s : State K B C) (rows0 : List (Row K))
    (h : ∀ i : Nat, (s.rows[i]?).map (·.par) = (rows0[i]?).map (·.par)) :
    rhalfOf s = fun j => ((rows0[j]?).map fun q : Row K => q.par.rhalf).getD 0 := by
  funext j
  have := congrArg (Option.map fun p : Params K => p.rhalf) (h j)
  simp only [Option.map_map] at this
  unfold rhalfOf
  split
  · rename_i q hq
    rw [hq] at this
    have t : (rows0[j]?).map (fun q : Row K => q.par.rhalf) = some q.par.rhalf := this.symm
    rw [t]; rfl
  · rename_i hq
    rw [hq] at this
    have t : (rows0[j]?).map (fun q : Row K => q.par.rhalf) = none := this.symm
    rw [t]; rfl

/-- One round: check out a region seeded on `k`, return it unchanged with `d` iterations. -/
theorem circular_round {E : Env K} {cfg : Config K} {rows0 : List (Row K)}
    (hE : E.OK rows0.length) (hR : Reachable E cfg rows0) (d : Int) (hd : 0 ≤ d)
    (y : Sys K B C) (Y : Ready rows0.length rows0 y) (k : Nat) (hk : k < rows0.length) :
    ∃ pars : List (Params K),
      let z := (run E cfg y [.checkout k, .checkin 0 pars d none none none]).1
      Ready rows0.length rows0 z ∧
      ∀ (i : Nat) (r : Row K), y.st.rows[i]? = some r →
        ∃ r' : Row K, z.st.rows[i]? = some r' ∧ r.nIter ≤ r'.nIter ∧
          (i = k → r'.nIter = r.nIter + d) := by
  obtain ⟨H, ho, hp⟩ := Y
  have hkl : k < y.st.rows.length := by rw [H.len]; exact hk
  have hr := List.getElem?_eq_getElem hkl
  have hr0 := List.getElem?_eq_getElem hk
  obtain ⟨q1, q2, q3⟩ := hR k _ hr0
  have hpk : (y.st.rows[k]).par = (rows0[k]).par := by
    have := hp k; rw [hr, hr0] at this; exact Option.some.inj this
  have hrhO := rhalfOf_eq y.st rows0 hp
  have hact : ∀ j, activeOf y.st j = false := by
    intro j
    unfold activeOf
    split
    · rename_i q hq
      by_contra hne
      have := (H.flag j q hq).1 (by simpa using hne)
      rw [ho] at this
      simp at this
    · rfl
  obtain ⟨radius, act, fix, hg, hin⟩ := circular_turn hE y.st
    ((rows0[k]).par.ra, (rows0[k]).par.dec) k hk q1
    (by rw [hrhO]; simpa [hr0] using q2) (by rw [hrhO]; exact q3) hact
  have hmem := fun j hj => (C08_sizes E cfg _ hE y.st _ radius act fix hg).2.2.2.2.1 j hj
  set rows3 := updAt (updAt (updAt y.st.rows act fun r => { r with isActive := true }) act
      fun r => { r with isValid := false }) fix fun r => { r with isValid := false } with hrows3
  set h : Held K := ⟨takeRows rows3 act, takeRows rows3 fix⟩ with hh
  have hst : step E cfg y (.checkout k) = ({ st := { y.st with
        rows := rows3
        nActive := y.st.nActive + act.length
        nFixed := y.st.nFixed + fix.length }, out := [h] }, none) := by
    simp only [step, checkout, hr, hpk, hg, ho, List.nil_append]
    rfl
  have H1 : SInv rows0.length (step E cfg y (.checkout k)).1 := inv_step hE y H _
  rw [hst] at H1
  set y1 : Sys K B C := { st := { y.st with
        rows := rows3
        nActive := y.st.nActive + act.length
        nFixed := y.st.nFixed + fix.length }, out := [h] } with hy1
  have hj : y1.out[0]? = some h := rfl
  refine ⟨h.active.map (·.par), ?_⟩
  intro z
  have hlen : (h.active.map (·.par)).length = h.active.length := by simp
  obtain ⟨c1, c2, c3, c4, c5, c6⟩ := checkin_held y1 H1 0 h hj (h.active.map (·.par)) d
    none none none hlen (by simp)
  obtain ⟨s', hs, hl', hrows, _⟩ := checkin_ok y1.st
    (heldArgs h (h.active.map (·.par)) d none none none)
    (by rw [c1]; exact c3) (by rw [c2]; exact c4) (by rw [c1]; exact c5) c6
  have hst2 : step E cfg y1 (.checkin 0 (h.active.map (·.par)) d none none none)
      = ({ st := s', out := [] }, some ⟨h.active.map (·.sourceIndex), d, none⟩) := by
    simp only [step, hj, hs]
    rw [if_pos ⟨hlen, by simp⟩]
    rfl
  have hz : z = { st := s', out := [] } := by
    simp only [z, run, hst, hst2]
  have H2 : SInv rows0.length ({ st := s', out := [] } : Sys K B C) := by
    have := inv_step (cfg := cfg) hE y1 H1 (.checkin 0 (h.active.map (·.par)) d none none none)
    rwa [hst2] at this
  have hactive : (heldArgs h (h.active.map (·.par)) d none none none : CheckinArgs K B C).active
      = h.active := by
    simp only [heldArgs]
    generalize h.active = l
    induction l with
    | nil => rfl
    | cons a t ih => simp only [List.map_cons, List.zipWith_cons_cons, ih]
  have hidx : h.actIdx = act := takeRows_idx (rows3_idx y.st.rows act fix H.index) act
    (fun j hj => by
      have := (hmem j (List.mem_append_left _ hj)).1
      simpa [H.len] using this)
  have hrow3 : ∀ (i : Nat) (r : Row K), y.st.rows[i]? = some r →
      ∃ r3 : Row K, rows3[i]? = some r3 ∧ r3.nIter = r.nIter ∧ r3.par = r.par := by
    intro i r hi
    rw [hrows3, rows3_getElem?, hi]
    exact ⟨_, rfl, rfl, rfl⟩
  rw [hz]
  refine ⟨⟨H2, rfl, ?_⟩, ?_⟩
  · intro i
    rw [← hp i]
    cases hi : y.st.rows[i]? with
    | none =>
      have : s'.rows[i]? = none := by
        rw [List.getElem?_eq_none_iff] at hi ⊢
        rw [hl']; simpa [hy1, hrows3] using hi
      simp [this]
    | some r =>
      obtain ⟨r3, h3, _, h3p⟩ := hrow3 i r hi
      rw [hrows i r3 h3]
      simp only [Option.map_some, Option.some.injEq]
      rw [hactive]
      split
      · rename_i w hw
        have hw1 := List.mem_of_find?_eq_some hw
        have hw2 := List.find?_some hw
        obtain ⟨a, ha, haw⟩ := (mem_takeRows _ _ _).1 hw1
        have := rows3_idx y.st.rows act fix H.index a w haw
        have hai : a = i := by simpa [this] using hw2
        subst hai
        have : w = r3 := Option.some.inj (haw.symm.trans h3)
        rw [this]; exact h3p
      · exact h3p
  · intro i r hi
    obtain ⟨r3, h3, h3n, _⟩ := hrow3 i r hi
    refine ⟨_, hrows i r3 h3, ?_, ?_⟩
    · rw [c1, hidx]
      show r.nIter ≤ if i ∈ act then r3.nIter + d else r3.nIter
      split <;> omega
    · rintro rfl
      rw [c1, hidx]
      show (if i ∈ act then r3.nIter + d else r3.nIter) = _
      rw [if_pos hin, h3n]

theorem run_append (E : Env K) (cfg : Config K) (y : Sys K B C) (a b : List (Op K B C)) :
    (run E cfg y (a ++ b)).1 = (run E cfg (run E cfg y a).1 b).1 := by
  induction a generalizing y with
  | nil => rfl
  | cons o t ih => simp only [List.cons_append, run]; exact ih _

/-- The calls of a worker loop that reports `d` iterations for every region. -/
def Draws (d : Int) (ops : List (Op K B C)) : Prop :=
  ∀ op ∈ ops, (∃ k, op = .checkout k) ∨ ∃ pars, op = .checkin 0 pars d none none none

theorem circular_rounds {E : Env K} {cfg : Config K} {rows0 : List (Row K)}
    (hE : E.OK rows0.length) (hR : Reachable E cfg rows0) (d : Int) (hd : 1 ≤ d)
    (seeds : List Nat) : (∀ k ∈ seeds, k < rows0.length) →
    ∀ (y : Sys K B C), Ready rows0.length rows0 y →
    ∃ ops : List (Op K B C), Draws d ops ∧ Ready rows0.length rows0 (run E cfg y ops).1 ∧
      ∀ (i : Nat) (r : Row K), y.st.rows[i]? = some r →
        ∃ r' : Row K, (run E cfg y ops).1.st.rows[i]? = some r' ∧
          r.nIter + seeds.count i ≤ r'.nIter := by
  induction seeds with
  | nil => intro _ y Y; exact ⟨[], by simp [Draws], Y, fun i r hi => ⟨r, hi, by simp⟩⟩
  | cons k t ih =>
    intro hs y Y
    obtain ⟨pars, Z, hz⟩ := circular_round hE hR d (by omega) y Y k (hs k (by simp))
    obtain ⟨ops, o1, o2, o3⟩ := ih (fun j hj => hs j (by simp [hj])) _ Z
    refine ⟨[.checkout k, .checkin 0 pars d none none none] ++ ops, ?_, ?_, ?_⟩
    · intro op hop
      rw [List.mem_append] at hop
      rcases hop with hop | hop
      · simp only [List.mem_cons, List.not_mem_nil, or_false] at hop
        rcases hop with rfl | rfl
        · exact Or.inl ⟨k, rfl⟩
        · exact Or.inr ⟨pars, rfl⟩
      · exact o1 op hop
    · rw [run_append]; exact o2
    · intro i r hi
      obtain ⟨r1, a1, a2, a3⟩ := hz i r hi
      obtain ⟨r2, b1, b2⟩ := o3 i r1 a1
      refine ⟨r2, by rw [run_append]; exact b1, ?_⟩
      rw [List.count_cons]
      by_cases hik : k = i
      · subst hik
        have := a3 rfl
        simp only [beq_self_eq_true, if_true]
        push_cast
        omega
      · have : (k == i) = false := by simpa using hik
        rw [this]
        simp only [Bool.false_eq_true, if_false, Nat.add_zero]
        omega

theorem count_rep (n m i : Nat) (hi : i < n) :
    ((List.range n).flatMap fun k => List.replicate m k).count i = m := by
  rw [List.count_flatMap]
  have : (List.range n).map (List.count i ∘ fun k => List.replicate m k)
      = (List.range n).map fun k => if k = i then m else 0 := by
    apply List.map_congr_left
    intro k _
    simp [List.count_replicate]
  rw [this]
  clear this
  induction n with
  | zero => omega
  | succ n ih =>
    rw [List.range_succ, List.map_append, List.sum_append]
    by_cases h : i < n
    · rw [ih h]
      have : n ≠ i := by omega
      simp [this]
    · have : n = i := by omega
      subst this
      have hz : ((List.range n).map fun k => if k = n then m else 0).sum = 0 := by
        apply List.sum_eq_zero
        intro x hx
        obtain ⟨k, hk, rfl⟩ := List.mem_map.1 hx
        have : k ≠ n := by have := List.mem_range.1 hk; omega
        simp [this]
      rw [hz]; simp

/-- C121 for circular regions: if every source of the catalog is within reach of a region seeded
on it, then for every target and every positive number of draws per region there is a sequence of
checkouts and check-ins after which the run is done, with no region left out.  Missing from the
full claim: sources that are too large or in crowded places, for which it is false. -/
theorem C121_circular_finish_partial (E : Env K) (cfg : Config K) (cat : List (Row K))
    (hE : E.OK cat.length) (hR : Reachable E cfg cat) (bounds : List B) (one : C)
    (hcat : ∀ r ∈ cat, 0 ≤ r.nIter) (d : Int) (hd : 1 ≤ d) :
    ∃ ops : List (Op K B C), Draws d ops ∧
      (run E cfg (fresh cat bounds one) ops).1.out = [] ∧
      undone cfg (run E cfg (fresh cat bounds one) ops).1.st = false := by
  have Y : Ready cat.length cat (fresh cat bounds one) := by
    refine ⟨inv_fresh cat bounds one, rfl, ?_⟩
    intro i
    simp only [fresh, ingest, List.getElem?_mapIdx, Option.map_map]
    rfl
  obtain ⟨ops, h1, h2, h3⟩ := circular_rounds (cfg := cfg) hE hR d hd
    ((List.range cat.length).flatMap fun k => List.replicate cfg.targetNiter.toNat k)
    (by
      intro k hk
      obtain ⟨a, ha, hka⟩ := List.mem_flatMap.1 hk
      rw [List.eq_of_mem_replicate hka]
      exact List.mem_range.1 ha) (fresh cat bounds one) Y
  refine ⟨ops, h1, h2.out, ?_⟩
  rw [C11_done_iff]
  intro r hr
  obtain ⟨i, hi, rfl⟩ := List.mem_iff_getElem.1 hr
  have hi0 : i < cat.length := by rw [← h2.inv.len]; exact hi
  have hif : i < (fresh cat bounds one).st.rows.length := by
    rw [(inv_fresh cat bounds one).len]; exact hi0
  obtain ⟨r', a1, a2⟩ := h3 i _ (List.getElem?_eq_getElem hif)
  rw [List.getElem?_eq_getElem hi, Option.some.injEq] at a1
  rw [count_rep _ _ _ hi0] at a2
  have hc : 0 ≤ ((fresh cat bounds one).st.rows[i]).nIter := by
    simp only [fresh, ingest, List.getElem_mapIdx]
    exact hcat _ (List.getElem_mem _)
  rw [a1, abs_of_nonneg (by omega)]
  omega

/-! ## Witnesses -/

/-- One active slot and the default radii (three half-light radii, six arcsec). -/
def cfgCrowd : Config Int where
  targetNiter := 10
  maxactive := 1
  nscale := 3
  boundaryRadius := 8
  maxradius := 6
  minradius := 1

/-- A source with a half-light radius of 1 and a point source at distance 2 from it. -/
def catCrowd : List (Row Int) := [mkRow 0 1, mkRow 2 0]

/-- C121 fails in crowded places: with one active slot the region checked out from source 0,
which is small enough to be active, holds only its point-like neighbour. -/
theorem C121_crowded_refuted :
    (lineEnv [0, 2]).OK catCrowd.length ∧
    getCircularScene (lineEnv [0, 2]) cfgCrowd
      (fresh catCrowd [0, 0] 1 : Sys Int Nat Nat).st (0, 0) = .ok (some (2, [1], [0])) ∧
    (lineEnv [0, 2]).dist (0, 0) 0 + cfgCrowd.nscale * 1 < cfgCrowd.maxradius := by
  refine ⟨lineEnv_ok _, rfl, by decide +kernel⟩

/-- The defaults of the constructor: three half-light radii, six arcsec. -/
def cfgDefault : Config Int := { cfgCrowd with maxactive := 20 }

/-- A source with a half-light radius of 2 arcsec beside a small one. -/
def catLarge : List (Row Int) := [mkRow 0 0, mkRow 3 2]

/-- Case for `C121_starved_refuted`: the hypotheses hold with the default radii and a half-light
radius of 2 arcsec, and regions can be checked out. -/
example : (lineEnv [0, 3]).OK catLarge.length ∧ (∀ c j, 0 ≤ (lineEnv [0, 3]).dist c j) ∧
    cfgDefault.maxradius ≤ cfgDefault.nscale * 2 ∧
    ((run (lineEnv [0, 3]) cfgDefault (fresh catLarge [0, 0] 1 : Sys Int Nat Nat)
      [.checkout 1]).1.out.map fun h => h.active.map (·.sourceIndex)) = [[0]] := by
  refine ⟨lineEnv_ok _, fun c j => abs_nonneg _, by decide, by decide +kernel⟩

/-- Case for the two partial theorems: the sources at 0, 3, 5 are all within reach. -/
theorem reachable3 : Reachable (lineEnv [0, 3, 5]) cfg3 cat3 := by
  intro k r hr
  have hk : k < 3 := (List.getElem?_eq_some_iff.1 hr).1
  have hno : ∀ (c : Int × Int) (L : List Nat) (k : Nat), L.Nodup → k < 3 →
      (c.1 = [0, 3, 5].getD k 0) →
      (∀ j ∈ L, j < 3 ∧ j ≠ k ∧ |c.1 - [(0 : Int), 3, 5].getD j 0| + 1 * 0 ≤
        |c.1 - [(0 : Int), 3, 5].getD k 0| + 1 * 0) → L = [] := by
    intro c L k _ hk hc hL
    cases L with
    | nil => rfl
    | cons j t =>
      obtain ⟨h1, h2, h3⟩ := hL j (by simp)
      rw [hc] at h3
      interval_cases k <;> interval_cases j <;> simp at h2 h3
  have hrh : ∀ j : Nat, ((cat3[j]?).map fun q : Row Int => q.par.rhalf).getD 0 = 0 := by
    intro j
    match j with
    | 0 => rfl
    | 1 => rfl
    | 2 => rfl
    | j + 3 => rfl
  have hpos : r.par.ra = [0, 3, 5].getD k 0 ∧ r.par.rhalf = 0 := by
    interval_cases k <;> (obtain rfl := Option.some.inj hr; exact ⟨rfl, rfl⟩)
  refine ⟨?_, ?_, ?_⟩
  · show |r.par.ra - [0, 3, 5].getD k 0| ≤ 4
    rw [hpos.1, sub_self]; decide
  · show |r.par.ra - [0, 3, 5].getD k 0| + 1 * r.par.rhalf < 3
    rw [hpos.1, hpos.2, sub_self]; decide
  · intro L hnd hL
    have := hno (r.par.ra, r.par.dec) L k hnd hk hpos.1 (by
      intro j hj
      obtain ⟨h1, h2, _, h3⟩ := hL j hj
      beta_reduce at h3
      rw [hrh, hrh] at h3
      exact ⟨h1, h2, h3⟩)
    rw [this]; decide

end Forcepho.SuperScene
