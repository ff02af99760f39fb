import Verif.Dispatcher.Parent

/-! # A parallel run is equivalent to a sequential one

Regions are handed to workers and come back in any order (dispatcher.py:190-230).  Here it is proved that the
catalog, the bounds, the covariances and the log of each source are at every moment those of a run that
fits one region at a time, in the order in which the regions were checked out. -/

set_option autoImplicit false

namespace Forcepho.Dispatcher.Serial

open Forcepho.SuperScene

variable {K B C : Type}

/-- What a worker sends back for one region (dispatcher.py:226-230: parameters, draws, covariances, bounds,
task id). -/
structure Reply (K B C : Type) where
  pars : List (Params K)
  niter : Int
  covs : Option (List C)
  bounds : Option (List B)
  tid : Option String

/-- One region of a run: the seed it was grown from, what was handed to the worker (rows, and the bounds and
covariances of the active sources, superscene.py:351-360), and the answer, if it was checked in. -/
structure Rec (K B C : Type) where
  seed : Nat
  held : Held K
  seenB : List (Option B)
  seenC : List (Option C)
  reply : Option (Reply K B C)

/-- The call made for an answer. -/
def callOf (h : Held K) (r : Reply K B C) : CheckinArgs K B C :=
  heldArgs h r.pars r.niter r.covs r.bounds r.tid

/-- An answer fits its region: one parameter set for each active source, and bounds of a fitting shape. -/
def Fits (h : Held K) (r : Reply K B C) : Prop :=
  r.pars.length = h.active.length ∧ ∀ b, r.bounds = some b → b.length = h.active.length ∨ b.length = 1

/-- The source is not out with a worker. -/
def Idle (s : State K B C) (k : Nat) : Prop := ∀ r, s.rows[k]? = some r → r.isActive = false

section
variable [CommRing K] [LinearOrder K]

/-- Parallel runs: regions are checked out and checked in in any order.  The list holds the regions in the order
of checkout.  The seed of a granted region is idle, or is still within the boundary radius of the place at which
the tree has it (so that the region would have been refused, were it out with a worker). -/
inductive Par (E : Env K) (cfg : Config K) (s0 : State K B C) : State K B C → List (Rec K B C) → Prop
  | start : Par E cfg s0 s0 []
  | refused {s s' hist} (k : Nat) (o : Outcome K) : Par E cfg s0 s hist → checkout E cfg s k = (s', o) →
      (∀ c r a f, o ≠ .region c r a f) → Par E cfg s0 s' hist
  | checkout {s s' hist} (k : Nat) (c : K × K) (ρ : K) (act fix : List (Row K)) : Par E cfg s0 s hist →
      Idle s k ∨ k ∈ E.ball c cfg.boundaryRadius → checkout E cfg s k = (s', .region c ρ act fix) →
      Par E cfg s0 s' (hist ++ [{
        seed := k
        held := ⟨act, fix⟩
        seenB := act.map fun r => s.bounds[r.sourceIndex]?
        seenC := act.map fun r => s.covs[r.sourceIndex]?
        reply := none }])
  | checkin {s s' l1 l2} (e : Rec K B C) (r : Reply K B C) : Par E cfg s0 s (l1 ++ e :: l2) →
      e.reply = none → Fits e.held r → checkin s (callOf e.held r) = (s', none) →
      Par E cfg s0 s' (l1 ++ { e with reply := some r } :: l2)

/-- Sequential runs: each region is checked out and checked in before the next. -/
inductive Seq (E : Env K) (cfg : Config K) : State K B C → List (Rec K B C) → State K B C → Prop
  | done (s : State K B C) : Seq E cfg s [] s
  | task {s s1 s2 s3 l} (e : Rec K B C) (r : Reply K B C) (c : K × K) (ρ : K) : Idle s e.seed →
      SuperScene.checkout E cfg s e.seed = (s1, .region c ρ e.held.active e.held.fixed) →
      e.seenB = e.held.active.map (fun x => s.bounds[x.sourceIndex]?) →
      e.seenC = e.held.active.map (fun x => s.covs[x.sourceIndex]?) →
      e.reply = some r → Fits e.held r → SuperScene.checkin s1 (callOf e.held r) = (s2, none) →
      Seq E cfg s2 l s3 → Seq E cfg s (e :: l) s3

/-- The sort looks only at the keys of what is sorted (`np.argsort(key[l])`, superscene.py:415). -/
def SortsLocally (E : Env K) : Prop :=
  ∀ (key key' : Nat → K) (l : List Nat), (∀ i ∈ l, key i = key' i) → E.argsortBy key l = E.argsortBy key' l

end

/-- The regions of a history that have been checked in. -/
def answered (l : List (Rec K B C)) : List (Rec K B C) := l.filter fun e => e.reply.isSome

/-- The regions of a history that are still out. -/
def open_ (l : List (Rec K B C)) : List (Held K) :=
  (l.filter fun e => e.reply.isNone).map (·.held)

/-! ## What one source sees of a check-in -/

/-- Assignments seen from one place. -/
def assignCell {α : Type} (ps : List (Nat × α)) (i : Nat) (o : Option α) : Option α :=
  ps.foldl (fun o p => if p.1 = i then o.map (fun _ => p.2) else o) o

theorem assignAt_cell {α : Type} (ps : List (Nat × α)) (i : Nat) : ∀ l : List α,
    (assignAt l ps)[i]? = assignCell ps i l[i]? := by
  induction ps with
  | nil => intro l; rfl
  | cons p t ih =>
    intro l
    obtain ⟨j, v⟩ := p
    rw [assignAt, ih, List.getElem?_set]
    simp only [assignCell, List.foldl_cons]
    congr 1
    by_cases h : j = i
    · subst h
      simp only [if_true]
      by_cases hj : j < l.length
      · simp [hj]
      · simp [hj]
    · simp [h]

theorem assignCell_not_mem {α : Type} (ps : List (Nat × α)) (i : Nat) (h : i ∉ ps.map Prod.fst) :
    ∀ o : Option α, assignCell ps i o = o := by
  induction ps with
  | nil => intro o; rfl
  | cons p t ih =>
    intro o
    simp only [List.map_cons, List.mem_cons, not_or] at h
    have := ih h.2
    simp only [assignCell, List.foldl_cons] at this ⊢
    rw [if_neg (fun e => h.1 e.symm)]
    exact this o

/-- A row without its flags. -/
def core (r : Row K) : Row K := { r with isActive := false, isValid := true }

/-- What is stored about one source, flags apart. -/
structure Cell (K B C : Type) where
  row : Option (Row K)
  bound : Option B
  cov : Option C
  log : List String

/-- What a state stores about source `i`. -/
def cell (s : State K B C) (i : Nat) : Cell K B C where
  row := (s.rows[i]?).map core
  bound := s.bounds[i]?
  cov := s.covs[i]?
  log := (logGet s.sourcelog i).getD []

/-- The effect of a check-in on what is stored about source `i`. -/
def eff (a : CheckinArgs K B C) (i : Nat) (c : Cell K B C) : Cell K B C where
  row := c.row.map fun old => { old with
    nIter := if i ∈ a.actIdx then old.nIter + a.niter else old.nIter
    nPatch := if i ∈ a.actIdx then old.nPatch + (if a.niter > 0 then 1 else 0) else old.nPatch
    par := match a.active.find? (fun r => r.sourceIndex = i) with
      | some r => r.par
      | none => old.par }
  bound := match a.newBounds with
    | none => c.bound
    | some nb => match bcast nb a.actIdx.length with
      | none => c.bound
      | some nb' => assignCell (a.actIdx.zip nb') i c.bound
  cov := match a.blockCovs with
    | none => c.cov
    | some bc => match bcast bc a.actIdx.length with
      | none => c.cov
      | some bc' => assignCell (a.actIdx.zip bc') i c.cov
  log := c.log ++ if i ∈ a.actIdx then a.taskID.toList else []

theorem zip_fst_mem {α β : Type} (l : List α) (w : List β) (i : α) (h : i ∈ (l.zip w).map Prod.fst) : i ∈ l := by
  obtain ⟨p, hp, rfl⟩ := List.mem_map.1 h
  exact (List.of_mem_zip hp).1

/-- Sources that are not active in a region see nothing of its check-in. -/
theorem eff_other (a : CheckinArgs K B C) (i : Nat) (h : i ∉ a.actIdx) (c : Cell K B C) : eff a i c = c := by
  have hf : a.active.find? (fun r => r.sourceIndex = i) = none := by
    rw [List.find?_eq_none]
    intro r hr he
    exact h (List.mem_map.2 ⟨r, hr, by simpa using he⟩)
  have hz : ∀ {α : Type} (w : List α) (o : Option α), assignCell (a.actIdx.zip w) i o = o :=
    fun w o => assignCell_not_mem _ _ (fun hm => h (zip_fst_mem _ _ _ hm)) o
  obtain ⟨row, bound, cov, log⟩ := c
  simp only [eff, hf, if_neg h, List.append_nil, Cell.mk.injEq, and_true]
  refine ⟨?_, ?_, ?_⟩
  · cases row <;> rfl
  · split
    · rfl
    · split
      · rfl
      · exact hz _ _
  · split
    · rfl
    · split
      · rfl
      · exact hz _ _

/-- A check-in does to every source what `eff` says. -/
theorem checkin_cell (s s' : State K B C) (a : CheckinArgs K B C)
    (hact : ∀ i ∈ a.actIdx, i < s.rows.length) (hfix : ∀ i ∈ a.fixIdx, i < s.rows.length) (hnd : a.actIdx.Nodup)
    (hb : ∀ b, a.newBounds = some b → b.length = a.active.length ∨ b.length = 1)
    (h : checkin s a = (s', none)) (i : Nat) : cell s' i = eff a i (cell s i) := by
  obtain ⟨s2, h2, hl, hr, -, -, -, hlog, hbo, hco⟩ := checkin_ok s a hact hfix hnd hb
  obtain rfl : s2 = s' := by rw [h2] at h; exact (Prod.mk.inj h).1
  simp only [cell, eff, Cell.mk.injEq]
  refine ⟨?_, ?_, ?_, ?_⟩
  · cases hi : s.rows[i]? with
    | none =>
      have : s2.rows[i]? = none := by
        rw [List.getElem?_eq_none_iff] at hi ⊢
        omega
      rw [this]
      rfl
    | some old =>
      rw [hr i old hi]
      simp only [Option.map_some, core]
      rfl
  · cases hnb : a.newBounds with
    | none =>
      rw [hnb] at hbo
      simp only [putBounds, Option.some.injEq] at hbo
      rw [hbo]
    | some nb =>
      rw [hnb] at hbo
      simp only [putBounds] at hbo
      cases hbc : bcast nb a.actIdx.length with
      | none => rw [hbc] at hbo; cases hbo
      | some w =>
        rw [hbc] at hbo
        simp only [Option.map_some, Option.some.injEq] at hbo
        rw [hbo, assignAt_cell]
        simp only [hbc]
  · rw [hco]
    cases hnb : a.blockCovs with
    | none => rfl
    | some nb =>
      simp only [putCovs]
      cases hbc : bcast nb a.actIdx.length with
      | none => rfl
      | some w => simp only [assignAt_cell]
  · rw [hlog, logGet_putLog _ _ hnd]

/-- What is stored about source `i` after the answers of a list of regions, in that order. -/
def foldAt (i : Nat) (l : List (Rec K B C)) (c : Cell K B C) : Cell K B C :=
  l.foldl (fun c e => match e.reply with
    | some r => eff (callOf e.held r) i c
    | none => c) c

theorem foldAt_append (i : Nat) (l l' : List (Rec K B C)) (c : Cell K B C) :
    foldAt i (l ++ l') c = foldAt i l' (foldAt i l c) := by
  simp [foldAt]

theorem callOf_act (h : Held K) (r : Reply K B C) (hf : Fits h r) : (callOf h r).actIdx = h.actIdx :=
  map_zipWith_par _ _ hf.1

/-- All answers of a history fit. -/
def AllFit (l : List (Rec K B C)) : Prop := ∀ e ∈ l, ∀ r, e.reply = some r → Fits e.held r

theorem foldAt_other (i : Nat) (l : List (Rec K B C)) (hf : AllFit l)
    (h : ∀ e ∈ l, e.reply ≠ none → i ∉ e.held.actIdx) (c : Cell K B C) : foldAt i l c = c := by
  induction l generalizing c with
  | nil => rfl
  | cons e l ih =>
    have hih := ih (fun e he => hf e (List.mem_cons_of_mem _ he)) (fun e he => h e (List.mem_cons_of_mem _ he))
    simp only [foldAt, List.foldl_cons] at hih ⊢
    cases hr : e.reply with
    | none => exact hih c
    | some r =>
      simp only
      rw [eff_other _ _ (by rw [callOf_act _ _ (hf e (by simp) r hr)]; exact h e (by simp) (by simp [hr]))]
      exact hih c

section
variable [CommRing K] [LinearOrder K] {E : Env K} {cfg : Config K} {n : Nat}

/-- A checkout changes flags and counts only. -/
theorem checkout_cell (s s' : State K B C) (k : Nat) (o : Outcome K) (h : checkout E cfg s k = (s', o)) (i : Nat) :
    cell s' i = cell s i := by
  rcases checkout_cases E cfg s k with ⟨e, h'⟩ | h' | ⟨seed, radius, act, fix, hk, hg, h'⟩
  · rw [h'] at h; rw [(Prod.mk.inj h).1]
  · rw [h'] at h; rw [(Prod.mk.inj h).1]
  · rw [h'] at h
    rw [← (Prod.mk.inj h).1]
    simp only [cell, Cell.mk.injEq, and_true, rows3_getElem?, Option.map_map]
    congr 1

/-- A successful checkout depends only on the seed and on the sources in the ball around it. -/
theorem checkout_local (hE : E.OK n) (hloc : SortsLocally E) (b t b1 : State K B C) (k : Nat) (c : K × K) (ρ : K)
    (A F : List (Row K)) (h : checkout E cfg b k = (b1, .region c ρ A F))
    (hx : ∀ x, (x = k ∨ x ∈ E.ball c cfg.boundaryRadius) →
      (b.rows[x]?).map core = (t.rows[x]?).map core ∧ Idle b x ∧ Idle t x) :
    ∃ t1, checkout E cfg t k = (t1, .region c ρ A F) := by
  rcases checkout_cases E cfg b k with ⟨e, h'⟩ | h' | ⟨seed, radius, act, fix, hk, hg, h'⟩
  · rw [h'] at h; cases (Prod.mk.inj h).2
  · rw [h'] at h; cases (Prod.mk.inj h).2
  rw [h'] at h
  have h2 := (Prod.mk.inj h).2
  simp only [Outcome.region.injEq] at h2
  obtain ⟨rfl, rfl, hA, hF⟩ := h2
  -- the seed
  obtain ⟨hk1, -, -⟩ := hx k (Or.inl rfl)
  rw [hk] at hk1
  obtain ⟨seed', hk', he⟩ : ∃ seed', t.rows[k]? = some seed' ∧ seed'.par = seed.par := by
    cases hh : t.rows[k]? with
    | none => rw [hh] at hk1; cases hk1
    | some r =>
      rw [hh] at hk1
      simp only [Option.map_some, Option.some.injEq] at hk1
      exact ⟨r, rfl, (congrArg Row.par hk1).symm⟩
  have hrow : ∀ x ∈ E.ball (seed.par.ra, seed.par.dec) cfg.boundaryRadius,
      rhalfOf b x = rhalfOf t x ∧ activeOf b x = false ∧ activeOf t x = false := by
    intro x hxm
    obtain ⟨h1, h2, h3⟩ := hx x (Or.inr hxm)
    unfold rhalfOf activeOf
    cases hb : b.rows[x]? with
    | none =>
      rw [hb] at h1
      cases ht : t.rows[x]? with
      | none => exact ⟨rfl, rfl, rfl⟩
      | some r => rw [ht] at h1; cases h1
    | some r =>
      rw [hb] at h1
      cases ht : t.rows[x]? with
      | none => rw [ht] at h1; cases h1
      | some r' =>
        rw [ht] at h1
        simp only [Option.map_some, Option.some.injEq] at h1
        have hp : (core r).par = (core r').par := congrArg Row.par h1
        simp only [core] at hp
        exact ⟨by simp only [hp], h2 r hb, h3 r' ht⟩
  obtain ⟨order, nA, hc⟩ := getCircularScene_some E cfg b _ n hE _ _ _ hg
  have hball := hc.mem_ball
  -- the same region in `t`
  have hg' : getCircularScene E cfg t (seed.par.ra, seed.par.dec) = .ok (some (radius, act, fix)) := by
    rw [← hg]
    unfold getCircularScene
    simp only
    set kinds := E.ball (seed.par.ra, seed.par.dec) cfg.boundaryRadius with hkinds
    by_cases h0 : kinds = []
    · simp [h0]
    simp only [if_neg h0]
    have ha1 : kinds.any (activeOf b) = false := by
      rw [List.any_eq_false]; intro x hxm; rw [(hrow x hxm).2.1]; simp
    have ha2 : kinds.any (activeOf t) = false := by
      rw [List.any_eq_false]; intro x hxm; rw [(hrow x hxm).2.2]; simp
    simp only [ha1, ha2, Bool.false_eq_true, if_false]
    have hkey : ∀ x ∈ kinds, E.dist (seed.par.ra, seed.par.dec) x + cfg.nscale * rhalfOf t x =
        E.dist (seed.par.ra, seed.par.dec) x + cfg.nscale * rhalfOf b x := by
      intro x hxm; rw [(hrow x hxm).1]
    have hinner : ∀ x ∈ kinds, E.dist (seed.par.ra, seed.par.dec) x - cfg.nscale * rhalfOf t x =
        E.dist (seed.par.ra, seed.par.dec) x - cfg.nscale * rhalfOf b x := by
      intro x hxm; rw [(hrow x hxm).1]
    rw [hloc (fun i => E.dist (seed.par.ra, seed.par.dec) i + cfg.nscale * rhalfOf t i)
      (fun i => E.dist (seed.par.ra, seed.par.dec) i + cfg.nscale * rhalfOf b i) kinds hkey]
    have hcount : kinds.countP (fun i => decide (E.dist (seed.par.ra, seed.par.dec) i +
          cfg.nscale * rhalfOf t i < cfg.maxradius)) =
        kinds.countP (fun i => decide (E.dist (seed.par.ra, seed.par.dec) i +
          cfg.nscale * rhalfOf b i < cfg.maxradius)) := by
      apply List.countP_congr
      intro x hxm
      rw [hkey x hxm]
    rw [hcount]
    set order := E.argsortBy (fun i => E.dist (seed.par.ra, seed.par.dec) i + cfg.nscale * rhalfOf b i) kinds
    set m := min cfg.maxactive (kinds.countP (fun i => decide (E.dist (seed.par.ra, seed.par.dec) i +
          cfg.nscale * rhalfOf b i < cfg.maxradius)))
    have hord : ∀ x ∈ order, x ∈ kinds := fun x hxm => (hE.argsort_perm _ _).mem_iff.1 hxm
    have hmap : (order.take m).map (fun i => E.dist (seed.par.ra, seed.par.dec) i + cfg.nscale * rhalfOf t i) =
        (order.take m).map (fun i => E.dist (seed.par.ra, seed.par.dec) i + cfg.nscale * rhalfOf b i) :=
      List.map_congr_left fun x hxm => hkey x (hord x (List.mem_of_mem_take hxm))
    rw [hmap]
    cases (order.take m).map (fun i => E.dist (seed.par.ra, seed.par.dec) i + cfg.nscale * rhalfOf b i) with
    | nil => rfl
    | cons y ys =>
      simp only
      have hfil : (order.drop m).filter (fun i => decide (E.dist (seed.par.ra, seed.par.dec) i -
            cfg.nscale * rhalfOf t i < max cfg.minradius (maxOf y ys))) =
          (order.drop m).filter (fun i => decide (E.dist (seed.par.ra, seed.par.dec) i -
            cfg.nscale * rhalfOf b i < max cfg.minradius (maxOf y ys))) := by
        apply List.filter_congr
        intro x hxm
        rw [hinner x (hord x (List.mem_of_mem_drop hxm))]
      rw [hfil]
  -- the same rows
  have hrows : ∀ l : List Nat, (∀ x ∈ l, x ∈ act ∨ x ∈ fix) →
      takeRows (updAt (updAt (updAt b.rows act fun r => { r with isActive := true })
        act fun r => { r with isValid := false }) fix fun r => { r with isValid := false }) l =
      takeRows (updAt (updAt (updAt t.rows act fun r => { r with isActive := true })
        act fun r => { r with isValid := false }) fix fun r => { r with isValid := false }) l := by
    intro l hl
    unfold takeRows
    apply List.filterMap_congr
    intro x hxl
    have hm : x ∈ act ++ fix := List.mem_append.2 (hl x hxl)
    obtain ⟨h1, h2, h3⟩ := hx x (Or.inr (hball x hm))
    rw [rows3_getElem?, rows3_getElem?]
    cases hb : b.rows[x]? with
    | none =>
      rw [hb] at h1
      cases ht : t.rows[x]? with
      | none => rfl
      | some r => rw [ht] at h1; cases h1
    | some r =>
      rw [hb] at h1
      cases ht : t.rows[x]? with
      | none => rw [ht] at h1; cases h1
      | some r' =>
        rw [ht] at h1
        have e1 := h2 r hb
        have e2 := h3 r' ht
        simp only [Option.map_some, Option.some.injEq] at h1 ⊢
        obtain ⟨a1, a2, a3, a4, a5, a6, a7⟩ := r
        obtain ⟨b1', b2, b3, b4, b5, b6, b7⟩ := r'
        simp only [core, Row.mk.injEq, true_and] at h1
        obtain ⟨rfl, rfl, rfl, rfl, rfl⟩ := h1
        simp only at e1 e2
        subst e1 e2
        simp [hl x hxl]
  refine ⟨{ t with
    rows := updAt (updAt (updAt t.rows act fun r => { r with isActive := true })
            act fun r => { r with isValid := false }) fix fun r => { r with isValid := false }
    nActive := t.nActive + act.length
    nFixed := t.nFixed + fix.length }, ?_⟩
  unfold checkout
  rw [hk']
  simp only [he, hg']
  rw [← hrows act (fun x hxm => Or.inl hxm), ← hrows fix (fun x hxm => Or.inr hxm), hA, hF]

/-! ## The invariant of a parallel run -/

/-- Region `e`, checked out after the regions `pre`, saw what the answered regions of `pre` leave, in the order of
checkout, and no source that is out with an unanswered one. -/
def Saw (E : Env K) (cfg : Config K) (s0 : State K B C) (pre : List (Rec K B C)) (e : Rec K B C) : Prop :=
  ∃ (b b1 : State K B C) (c : K × K) (ρ : K),
    checkout E cfg b e.seed = (b1, .region c ρ e.held.active e.held.fixed) ∧
    e.seenB = e.held.active.map (fun x => b.bounds[x.sourceIndex]?) ∧
    e.seenC = e.held.active.map (fun x => b.covs[x.sourceIndex]?) ∧
    (∀ x ∈ e.held.actIdx, x ∈ E.ball c cfg.boundaryRadius) ∧
    ∀ x, (x = e.seed ∨ x ∈ E.ball c cfg.boundaryRadius) →
      Idle b x ∧ (∀ e0 ∈ pre, e0.reply = none → x ∉ e0.held.actIdx) ∧ cell b x = foldAt x pre (cell s0 x)

/-- The invariant of a parallel run. -/
structure PI (E : Env K) (cfg : Config K) (n : Nat) (s0 s : State K B C) (hist : List (Rec K B C)) : Prop where
  scene : SInv n (Sys.mk s (open_ hist))
  valid : SInv2 (Sys.mk s (open_ hist))
  fits : AllFit hist
  cells : ∀ i, cell s i = foldAt i hist (cell s0 i)
  saw : ∀ l1 e l2, hist = l1 ++ e :: l2 → Saw E cfg s0 l1 e
  log : s.patchlog.Perm (s0.patchlog ++ hist.flatMap fun e => (e.reply.bind (·.tid)).toList)

omit [CommRing K] [LinearOrder K] in
theorem open_append (l l' : List (Rec K B C)) : open_ (l ++ l') = open_ l ++ open_ l' := by simp [open_]

omit [CommRing K] [LinearOrder K] in
theorem mem_open (l : List (Rec K B C)) (e : Rec K B C) (he : e ∈ l) (hr : e.reply = none) : e.held ∈ open_ l :=
  List.mem_map.2 ⟨e, List.mem_filter.2 ⟨he, by simp [hr]⟩, rfl⟩

theorem pi_start (s0 : State K B C) (H : SInv n (Sys.mk s0 [])) (H2 : SInv2 (Sys.mk s0 [])) :
    PI E cfg n s0 s0 [] where
  scene := H
  valid := H2
  fits := by intro e he; simp at he
  cells := fun i => rfl
  saw := by intro l1 e l2 h; simp at h
  log := by simp

theorem pi_checkout (hE : E.OK n) (s0 s s' : State K B C) (hist : List (Rec K B C)) (H : PI E cfg n s0 s hist) (k : Nat)
    (c : K × K) (ρ : K) (act fix : List (Row K)) (hid : Idle s k ∨ k ∈ E.ball c cfg.boundaryRadius)
    (h : checkout E cfg s k = (s', .region c ρ act fix)) :
    PI E cfg n s0 s' (hist ++ [{
        seed := k
        held := ⟨act, fix⟩
        seenB := act.map fun r => s.bounds[r.sourceIndex]?
        seenC := act.map fun r => s.covs[r.sourceIndex]?
        reply := none }]) := by
  have hcell := checkout_cell s s' k _ h
  have hI := inv_checkout (E := E) (cfg := cfg) hE _ H.scene k
  have hI2 := inv2_step (E := E) (cfg := cfg) hE _ H.scene H.valid (Op.checkout k)
  have h0 := h
  rcases checkout_cases E cfg s k with ⟨e, h'⟩ | h' | ⟨seed, radius, ai, fi, hk, hg, h'⟩
  · rw [h'] at h; cases (Prod.mk.inj h).2
  · rw [h'] at h; cases (Prod.mk.inj h).2
  obtain ⟨hA, hF⟩ := checkout_idx hE _ H.scene _ _ _ _ hg
  obtain ⟨order, nA, hc⟩ := getCircularScene_some E cfg s _ n hE _ _ _ hg
  simp only [step, h0] at hI hI2
  rw [h'] at h
  obtain ⟨h1, h2⟩ := Prod.mk.inj h
  simp only [Outcome.region.injEq] at h2
  obtain ⟨rfl, rfl, e3, e4⟩ := h2
  refine ⟨?_, ?_, ?_, ?_, ?_, ?_⟩
  · rw [open_append]; exact hI
  · rw [open_append]; exact hI2
  · intro e he r hr
    rw [List.mem_append] at he
    rcases he with he | he
    · exact H.fits e he r hr
    · rw [List.mem_singleton] at he
      rw [he] at hr
      cases hr
  · intro i
    rw [hcell, foldAt_append, H.cells i]
    rfl
  · intro l1 e l2 hl
    rcases List.eq_nil_or_concat l2 with rfl | ⟨l3, z, rfl⟩
    · have := List.append_inj' hl rfl
      obtain ⟨rfl, hz⟩ := this
      obtain rfl := (List.cons.inj hz).1
      refine ⟨s, s', _, _, h0, rfl, rfl, ?_, ?_⟩
      · intro x hx
        apply hc.mem_ball
        apply List.mem_append_left
        rw [← hA]
        simp only [Held.actIdx] at hx
        rw [← e3] at hx
        exact hx
      · intro x hx
        have hidle : Idle s x := by
          have hb : ∀ x ∈ E.ball (seed.par.ra, seed.par.dec) cfg.boundaryRadius, Idle s x := by
            intro x hx r hr
            have := hc.noactive x hx
            unfold activeOf at this
            rw [hr] at this
            exact this
          rcases hx with rfl | hx
          · rcases hid with hid | hid
            · exact hid
            · exact hb _ hid
          · exact hb x hx
        refine ⟨hidle, ?_, H.cells x⟩
        intro e0 he0 hr0 hx0
        have hm := mem_open _ _ he0 hr0
        have hlt := H.scene.heldLt _ hm x (List.mem_append_left _ hx0)
        have hl2 : x < s.rows.length := by rw [H.scene.len]; exact hlt
        have hrow := List.getElem?_eq_getElem hl2
        have := (H.scene.flag x _ hrow).2 (List.mem_flatMap.2 ⟨_, hm, hx0⟩)
        rw [hidle _ hrow] at this
        cases this
    · have : hist = l1 ++ e :: l3 := by
        have := List.append_inj' (hl.trans (by simp : _ = (l1 ++ e :: l3) ++ [z])) rfl
        exact this.1
      exact H.saw l1 e l3 this
  · rw [← h1]
    simp only [List.flatMap_append]
    simpa using H.log

theorem pi_checkin (hE : E.OK n) (s0 s s' : State K B C) (l1 l2 : List (Rec K B C)) (e : Rec K B C) (r : Reply K B C)
    (H : PI E cfg n s0 s (l1 ++ e :: l2)) (he : e.reply = none) (hf : Fits e.held r)
    (h : checkin s (callOf e.held r) = (s', none)) :
    PI E cfg n s0 s' (l1 ++ { e with reply := some r } :: l2) := by
  have hop : open_ (l1 ++ e :: l2) = open_ l1 ++ e.held :: open_ l2 := by simp [open_, he]
  have hop' : open_ (l1 ++ { e with reply := some r } :: l2) = open_ l1 ++ open_ l2 := by simp [open_]
  have Hs := H.scene
  have Hv := H.valid
  rw [hop] at Hs Hv
  have hj : (Sys.mk s (open_ l1 ++ e.held :: open_ l2)).out[(open_ l1).length]? = some e.held := by simp
  obtain ⟨c1, c2, c3, c4, c5, c6⟩ := checkin_held _ Hs _ _ hj r.pars r.niter r.covs r.bounds r.tid hf.1 hf.2
  obtain ⟨s2, hs2, hI⟩ := inv_release _ Hs _ _ hj _ c1 c2 c6
  obtain rfl : s2 = s' := (Prod.mk.inj (hs2.symm.trans h)).1
  have hcell := checkin_cell s s2 (callOf e.held r) (by rw [callOf, c1]; exact c3) (by rw [callOf, c2]; exact c4)
    (by rw [callOf, c1]; exact c5) c6 h
  have hact : (callOf e.held r).actIdx = e.held.actIdx := c1
  have hst : step E cfg (Sys.mk s (open_ l1 ++ e.held :: open_ l2))
      (Op.checkin (open_ l1).length r.pars r.niter r.covs r.bounds r.tid) =
      (Sys.mk s2 ((open_ l1 ++ e.held :: open_ l2).eraseIdx (open_ l1).length),
        some ⟨e.held.active.map (·.sourceIndex), r.niter, r.tid⟩) := by
    simp only [step, List.getElem?_append_right (le_refl _), Nat.sub_self, List.getElem?_cons_zero]
    rw [if_pos ⟨hf.1, hf.2⟩, show checkin s (heldArgs _ r.pars r.niter r.covs r.bounds r.tid) = _ from h]
  have hI2 := inv2_step (E := E) (cfg := cfg) hE _ Hs Hv
    (Op.checkin (open_ l1).length r.pars r.niter r.covs r.bounds r.tid)
  rw [hst] at hI2
  -- regions checked out later do not have the active sources of this one
  have hlater : ∀ f ∈ l2, ∀ x ∈ e.held.actIdx, x ∉ f.held.actIdx := by
    intro f hf x hx hx'
    obtain ⟨m1, m2, rfl⟩ := List.append_of_mem hf
    obtain ⟨b, b1, c, ρ, -, -, -, hb, hs⟩ := H.saw (l1 ++ e :: m1) f m2 (by simp)
    exact (hs x (Or.inr (hb x hx'))).2.1 e (by simp) he hx
  have hfit2 : AllFit l2 := fun f hf => H.fits f (by simp [hf])
  have hnew : ∀ (i : Nat) (m : List (Rec K B C)) (d : Cell K B C),
      foldAt i (l1 ++ { e with reply := some r } :: m) d = foldAt i m (eff (callOf e.held r) i (foldAt i l1 d)) := by
    intro i m d
    rw [foldAt_append]
    rfl
  have hold : ∀ (i : Nat) (m : List (Rec K B C)) (d : Cell K B C),
      foldAt i (l1 ++ e :: m) d = foldAt i m (foldAt i l1 d) := by
    intro i m d
    rw [foldAt_append]
    conv_lhs => unfold foldAt
    simp only [List.foldl_cons, he]
    rfl
  refine ⟨?_, ?_, ?_, ?_, ?_, ?_⟩
  · rw [hop']
    simpa [List.eraseIdx_append_of_length_le] using hI
  · rw [hop']
    simpa [List.eraseIdx_append_of_length_le] using hI2
  · intro f hm r' hr'
    rw [List.mem_append, List.mem_cons] at hm
    rcases hm with hm | rfl | hm
    · exact H.fits f (by simp [hm]) r' hr'
    · simp only [Option.some.injEq] at hr'
      rw [← hr']
      exact hf
    · exact hfit2 f hm r' hr'
  · intro i
    rw [hcell, H.cells, hnew, hold]
    by_cases hi : i ∈ e.held.actIdx
    · have : ∀ d, foldAt i l2 d = d := foldAt_other i l2 hfit2 (fun f hf _ => hlater f hf i hi)
      rw [this, this]
    · rw [eff_other _ _ (by rw [hact]; exact hi), eff_other _ _ (by rw [hact]; exact hi)]
  · intro m1 f m2 hm
    rcases List.append_eq_append_iff.1 hm with ⟨a, rfl, ha⟩ | ⟨a, rfl, ha⟩
    · -- `m1` is at least as long as `l1`
      cases a with
      | nil =>
        obtain ⟨rfl, rfl⟩ := List.cons.inj ha
        rw [List.append_nil]
        exact H.saw l1 e l2 rfl
      | cons z a =>
        obtain ⟨rfl, rfl⟩ := List.cons.inj ha
        obtain ⟨b, b1, c, ρ, h1, h2, h3, h4, h5⟩ := H.saw (l1 ++ e :: a) f m2 (by simp)
        refine ⟨b, b1, c, ρ, h1, h2, h3, h4, ?_⟩
        intro x hx
        obtain ⟨g1, g2, g3⟩ := h5 x hx
        refine ⟨g1, ?_, ?_⟩
        · intro e0 he0 hr0
          rw [List.mem_append, List.mem_cons] at he0
          rcases he0 with he0 | rfl | he0
          · exact g2 e0 (by simp [he0]) hr0
          · cases hr0
          · exact g2 e0 (by simp [he0]) hr0
        · rw [g3, hnew, hold, eff_other _ _ (by rw [hact]; exact g2 e (by simp) he)]
    · cases a with
      | nil =>
        obtain ⟨rfl, rfl⟩ := List.cons.inj ha
        have := H.saw m1 e m2 (by simp)
        exact this
      | cons z a =>
        obtain ⟨rfl, rfl⟩ := List.cons.inj ha
        exact H.saw m1 f (a ++ e :: l2) (by simp)
  · obtain ⟨s3, h3, -, -, -, -, hpl, -⟩ := checkin_ok s (callOf e.held r) (by rw [callOf, c1]; exact c3)
      (by rw [callOf, c2]; exact c4) (by rw [callOf, c1]; exact c5) c6
    obtain rfl : s3 = s2 := by rw [h] at h3; exact (Prod.mk.inj h3).1.symm
    rw [hpl]
    have hL := H.log
    simp only [List.flatMap_append, List.flatMap_cons, he, Option.bind_none, Option.toList_none, List.nil_append,
      Option.bind_some] at hL ⊢
    refine (hL.append_right _).trans ?_
    simp only [callOf, heldArgs, List.append_assoc]
    refine List.Perm.append_left _ (List.Perm.append_left _ ?_)
    exact List.perm_append_comm

theorem pi_par (hE : E.OK n) (s0 : State K B C) (H0 : SInv n (Sys.mk s0 [])) (H2 : SInv2 (Sys.mk s0 []))
    (s : State K B C) (hist : List (Rec K B C)) (h : Par E cfg s0 s hist) : PI E cfg n s0 s hist := by
  induction h with
  | start => exact pi_start s0 H0 H2
  | refused k o _ h hno ih =>
    rename_i s s' hist _
    rcases checkout_cases E cfg s k with ⟨e, h'⟩ | h' | ⟨seed, radius, ai, fi, hk, hg, h'⟩
    · rw [h'] at h; rw [← (Prod.mk.inj h).1]; exact ih
    · rw [h'] at h; rw [← (Prod.mk.inj h).1]; exact ih
    · rw [h'] at h; exact absurd (Prod.mk.inj h).2.symm (hno _ _ _ _)
  | checkout k c ρ act fix _ hid h ih => exact pi_checkout hE s0 _ _ _ ih k c ρ act fix hid h
  | checkin e r _ he hf h ih => exact pi_checkin hE s0 _ _ _ _ e r ih he hf h

/-! ## The sequential run -/

/-- Nothing is handed out and all sources are valid. -/
structure Quiet (n : Nat) (t : State K B C) : Prop where
  scene : SInv n (Sys.mk t [])
  valid : SInv2 (Sys.mk t [])

omit [CommRing K] [LinearOrder K] in
theorem Quiet.idle {t : State K B C} (Q : Quiet n t) (x : Nat) : Idle t x := by
  intro r hr
  cases ha : r.isActive with
  | false => rfl
  | true =>
    have := (Q.scene.flag x r hr).1 ha
    simp at this

omit [CommRing K] [LinearOrder K] in
theorem Quiet.core {t : State K B C} (Q : Quiet n t) (x : Nat) (r : Row K) (hr : t.rows[x]? = some r) : core r = r := by
  have h1 := Q.idle x r hr
  have h2 : r.isValid = true := by
    cases hv : r.isValid with
    | true => rfl
    | false =>
      obtain ⟨h, hm, -⟩ := Q.valid.invalid x r hr hv
      simp at hm
  obtain ⟨a1, a2, a3, a4, a5, a6, a7⟩ := r
  simp only at h1 h2
  subst h1 h2
  rfl

theorem seq_exists (hE : E.OK n) (hloc : SortsLocally E) (s0 s : State K B C) (hist : List (Rec K B C))
    (H : PI E cfg n s0 s hist) : ∀ (l2 l1 : List (Rec K B C)) (t : State K B C), hist = l1 ++ l2 → Quiet n t →
    (∀ i, cell t i = foldAt i l1 (cell s0 i)) →
    t.patchlog = s0.patchlog ++ l1.flatMap (fun e => (e.reply.bind (·.tid)).toList) →
    ∃ t', Seq E cfg t (answered l2) t' ∧ Quiet n t' ∧ (∀ i, cell t' i = foldAt i hist (cell s0 i)) ∧
      t'.patchlog = s0.patchlog ++ hist.flatMap (fun e => (e.reply.bind (·.tid)).toList) := by
  intro l2
  induction l2 with
  | nil =>
    intro l1 t hl Q hc hp
    rw [List.append_nil] at hl
    subst hl
    exact ⟨t, Seq.done t, Q, hc, hp⟩
  | cons e l2 ih =>
    intro l1 t hl Q hc hp
    have hstep : ∀ i, foldAt i (l1 ++ [e]) (cell s0 i) = match e.reply with
        | some r => eff (callOf e.held r) i (foldAt i l1 (cell s0 i))
        | none => foldAt i l1 (cell s0 i) := by
      intro i
      rw [foldAt_append]
      rfl
    cases hr : e.reply with
    | none =>
      have ha : answered (e :: l2) = answered l2 := by simp [answered, hr]
      rw [ha]
      refine ih (l1 ++ [e]) t (by simp [hl]) Q ?_ ?_
      · intro i; rw [hstep, hr]; exact hc i
      · rw [hp]; simp [hr]
    | some r =>
      have ha : answered (e :: l2) = e :: answered l2 := by simp [answered, hr]
      rw [ha]
      obtain ⟨b, b1, c, ρ, h1, h2, h3, h4, h5⟩ := H.saw l1 e l2 hl
      have hcc : ∀ x, (x = e.seed ∨ x ∈ E.ball c cfg.boundaryRadius) → cell b x = cell t x := by
        intro x hx; rw [(h5 x hx).2.2, hc x]
      obtain ⟨t1, ht1⟩ := checkout_local hE hloc b t b1 e.seed c ρ _ _ h1 (by
        intro x hx
        exact ⟨congrArg Cell.row (hcc x hx), (h5 x hx).1, Q.idle x⟩)
      have hf : Fits e.held r := H.fits e (by simp [hl]) r hr
      -- the checkout and the check-in keep the invariants
      have hI := inv_step (E := E) (cfg := cfg) hE _ Q.scene (Op.checkout e.seed)
      have hI2 := inv2_step (E := E) (cfg := cfg) hE _ Q.scene Q.valid (Op.checkout e.seed)
      simp only [step, ht1, List.nil_append] at hI hI2
      have hj : (Sys.mk t1 [(⟨e.held.active, e.held.fixed⟩ : Held K)]).out[0]? = some e.held := rfl
      obtain ⟨c1, c2, c3, c4, c5, c6⟩ := checkin_held _ hI 0 _ hj r.pars r.niter r.covs r.bounds r.tid hf.1 hf.2
      obtain ⟨t2, ht2, -, -, -, -, hpl, -⟩ := checkin_ok t1 (callOf e.held r) (by rw [callOf, c1]; exact c3)
        (by rw [callOf, c2]; exact c4) (by rw [callOf, c1]; exact c5) c6
      have hst : step E cfg (Sys.mk t1 [(⟨e.held.active, e.held.fixed⟩ : Held K)])
          (Op.checkin 0 r.pars r.niter r.covs r.bounds r.tid) =
          (Sys.mk t2 [], some ⟨e.held.active.map (·.sourceIndex), r.niter, r.tid⟩) := by
        simp only [step, List.getElem?_cons_zero]
        rw [if_pos ⟨hf.1, hf.2⟩, show checkin t1 (heldArgs _ r.pars r.niter r.covs r.bounds r.tid) = _ from ht2]
        rfl
      have hJ := inv_step (E := E) (cfg := cfg) hE _ hI (Op.checkin 0 r.pars r.niter r.covs r.bounds r.tid)
      have hJ2 := inv2_step (E := E) (cfg := cfg) hE _ hI hI2 (Op.checkin 0 r.pars r.niter r.covs r.bounds r.tid)
      rw [hst] at hJ hJ2
      have hcell := checkin_cell t1 t2 (callOf e.held r) (by rw [callOf, c1]; exact c3)
        (by rw [callOf, c2]; exact c4) (by rw [callOf, c1]; exact c5) c6 ht2
      have hcell1 := checkout_cell t t1 e.seed _ ht1
      have hpl1 : t1.patchlog = t.patchlog := by
        rcases checkout_cases E cfg t e.seed with ⟨e, h'⟩ | h' | ⟨seed, radius, ai, fi, hk, hg, h'⟩
        · rw [h'] at ht1; rw [← (Prod.mk.inj ht1).1]
        · rw [h'] at ht1; rw [← (Prod.mk.inj ht1).1]
        · rw [h'] at ht1; rw [← (Prod.mk.inj ht1).1]
      obtain ⟨t3, hseq, Q3, hc3, hp3⟩ := ih (l1 ++ [e]) t2 (by simp [hl]) ⟨hJ, hJ2⟩
        (by intro i; rw [hstep, hr, hcell, hcell1, hc i])
        (by rw [hpl, hpl1, hp]; simp [hr, callOf, heldArgs])
      refine ⟨t3, Seq.task e r c ρ (Q.idle _) ht1 ?_ ?_ hr hf ht2 hseq, Q3, hc3, hp3⟩
      · rw [h2]
        apply List.map_congr_left
        intro x hx
        exact congrArg Cell.bound (hcc _ (Or.inr (h4 _ (List.mem_map_of_mem hx))))
      · rw [h3]
        apply List.map_congr_left
        intro x hx
        exact congrArg Cell.cov (hcc _ (Or.inr (h4 _ (List.mem_map_of_mem hx))))

/-! ## The claims -/

/-- C132: at any moment of a parallel run there is a sequential run of the regions checked in so far, in the order in
which they were checked out, in which every region is handed the very same rows, bounds and covariances, and which ends
with the same parameters, counts, bounds, covariances and per-source logs; the log of regions is the same up to order.
If nothing is out, the two catalogs are equal flag by flag and the counters agree. -/
theorem C132_serial (cat : List (Row K)) (hE : E.OK cat.length) (hloc : SortsLocally E) (bounds : List B) (one : C)
    (s : State K B C) (hist : List (Rec K B C)) (h : Par E cfg (ingest cat bounds one) s hist) :
    ∃ t, Seq E cfg (ingest cat bounds one) (hist.filter fun e => e.reply.isSome) t ∧
      t.rows = s.rows.map (fun r => { r with isActive := false, isValid := true }) ∧
      t.bounds = s.bounds ∧ t.covs = s.covs ∧
      (∀ i, (logGet t.sourcelog i).getD [] = (logGet s.sourcelog i).getD []) ∧
      t.patchlog.Perm s.patchlog ∧
      ((∀ e ∈ hist, e.reply ≠ none) → t.rows = s.rows ∧ t.nActive = s.nActive ∧ t.nFixed = s.nFixed) := by
  have H := pi_par hE _ (inv_fresh cat bounds one) (inv2_fresh cat bounds one) s hist h
  obtain ⟨t, hs, Q, hc, hp⟩ := seq_exists hE hloc _ s hist H hist [] (ingest cat bounds one) rfl
    ⟨inv_fresh cat bounds one, inv2_fresh cat bounds one⟩ (fun i => rfl) (by simp)
  have hcell : ∀ i, cell t i = cell s i := fun i => by rw [hc, H.cells]
  have hrow : t.rows = s.rows.map core := by
    apply List.ext_getElem?
    intro i
    rw [List.getElem?_map]
    have := congrArg Cell.row (hcell i)
    simp only [cell] at this
    rw [← this]
    cases hr : t.rows[i]? with
    | none => rfl
    | some r => rw [Option.map_some, Q.core i r hr]
  refine ⟨t, hs, hrow, ?_, ?_, ?_, ?_, ?_⟩
  · exact List.ext_getElem? fun i => congrArg Cell.bound (hcell i)
  · exact List.ext_getElem? fun i => congrArg Cell.cov (hcell i)
  · exact fun i => congrArg Cell.log (hcell i)
  · rw [hp]; exact H.log.symm
  · intro hall
    have ho : open_ hist = [] := by
      unfold open_
      rw [List.map_eq_nil_iff, List.filter_eq_nil_iff]
      intro e he
      have := hall e he
      cases hr : e.reply with
      | none => exact absurd hr this
      | some r => simp
    have Hs := H.scene
    have Hv := H.valid
    rw [ho] at Hs Hv
    have Qs : Quiet cat.length s := ⟨Hs, Hv⟩
    refine ⟨?_, ?_, ?_⟩
    · rw [hrow]
      apply List.ext_getElem?
      intro i
      rw [List.getElem?_map]
      cases hr : s.rows[i]? with
      | none => rfl
      | some r => rw [Option.map_some, Qs.core i r hr]
    · rw [Q.scene.nAct, Hs.nAct]
    · rw [Q.scene.nFix, Hs.nFix]

/-! ### The order in which answers arrive does not matter -/

omit [CommRing K] [LinearOrder K] in
/-- A state without its logs. -/
def noLog (s : State K B C) : State K B C := { s with sourcelog := [], patchlog := [] }

theorem checkout_noLog (s : State K B C) (k : Nat) :
    checkout E cfg (noLog s) k = (noLog (checkout E cfg s k).1, (checkout E cfg s k).2) := by
  have hg : ∀ c, getCircularScene E cfg (noLog s) c = getCircularScene E cfg s c := fun c => rfl
  unfold checkout
  simp only [hg]
  cases hk : s.rows[k]? with
  | none =>
    have : (noLog s).rows[k]? = none := hk
    rw [this]
  | some r =>
    have : (noLog s).rows[k]? = some r := hk
    rw [this]
    simp only
    cases getCircularScene E cfg s (r.par.ra, r.par.dec) with
    | error e => rfl
    | ok o =>
      cases o with
      | none => rfl
      | some x => rfl

omit [CommRing K] [LinearOrder K] in
theorem checkin_noLog (s : State K B C) (a : CheckinArgs K B C) :
    checkin (noLog s) { a with taskID := none } = (noLog (checkin s a).1, (checkin s a).2) := by
  unfold checkin
  simp only
  have h1 : (noLog s).rows = s.rows := rfl
  have h2 : (noLog s).bounds = s.bounds := rfl
  have h3 : ({ a with taskID := none } : CheckinArgs K B C).actIdx = a.actIdx := rfl
  have h4 : ({ a with taskID := none } : CheckinArgs K B C).fixIdx = a.fixIdx := rfl
  rw [h1, h2, h3, h4]
  split
  · rfl
  · split
    · rfl
    · cases putBounds s.bounds a.actIdx a.newBounds with
      | none => rfl
      | some b => rfl

/-- Two sequential runs with the same seeds and the same work end alike, logs apart. -/
theorem seq_same (work : Held K → List (Option B) → List (Option C) → Reply K B C) :
    ∀ (l l' : List (Rec K B C)) (s s' t t' : State K B C), noLog s = noLog s' → Seq E cfg s l t → Seq E cfg s' l' t' →
    l.map (·.seed) = l'.map (·.seed) →
    (∀ e ∈ l ++ l', ∃ tid, e.reply = some { work e.held e.seenB e.seenC with tid := tid }) →
    noLog t = noLog t' ∧ l.map (·.held) = l'.map (·.held) := by
  intro l
  induction l with
  | nil =>
    intro l' s s' t t' hn h h' hs hw
    cases l' with
    | cons e l' => simp at hs
    | nil =>
      cases h
      cases h'
      exact ⟨hn, rfl⟩
  | cons e l ih =>
    intro l' s s' t t' hn h h' hs hw
    cases l' with
    | nil => simp at hs
    | cons e' l' =>
      simp only [List.map_cons, List.cons.injEq] at hs
      obtain ⟨hk, hs⟩ := hs
      cases h with
      | @task _ s1 s2 _ _ _ r c ρ _ hco hB hC hr hf hci hrest =>
      cases h' with
      | @task _ s1' s2' _ _ _ r' c' ρ' _ hco' hB' hC' hr' hf' hci' hrest' =>
      have e1 := checkout_noLog (E := E) (cfg := cfg) s e.seed
      have e2 := checkout_noLog (E := E) (cfg := cfg) s' e'.seed
      rw [hn, hk, e2, hco'] at e1
      rw [hk] at hco
      rw [hco] at e1
      obtain ⟨e3, e4⟩ := Prod.mk.inj e1
      simp only [Outcome.region.injEq] at e4
      obtain ⟨-, -, e5, e6⟩ := e4
      have hh : e.held = e'.held := by
        obtain ⟨_, ⟨a, f⟩, _, _, _⟩ := e
        obtain ⟨_, ⟨a', f'⟩, _, _, _⟩ := e'
        simp only at e5 e6
        rw [e5, e6]
      have hb : s.bounds = s'.bounds := show (noLog s).bounds = (noLog s').bounds by rw [hn]
      have hc : s.covs = s'.covs := show (noLog s).covs = (noLog s').covs by rw [hn]
      have hBB : e.seenB = e'.seenB := by rw [hB, hB', hh, hb]
      have hCC : e.seenC = e'.seenC := by rw [hC, hC', hh, hc]
      obtain ⟨tid, ht⟩ := hw e (by simp)
      obtain ⟨tid', ht'⟩ := hw e' (by simp)
      rw [hr] at ht
      rw [hr'] at ht'
      have e7 := checkin_noLog s1 (callOf e.held r)
      have e8 := checkin_noLog s1' (callOf e'.held r')
      have e9 : ({ callOf e.held r with taskID := none } : CheckinArgs K B C) =
          { callOf e'.held r' with taskID := none } := by
        obtain rfl := Option.some.inj ht
        obtain rfl := Option.some.inj ht'
        rw [hh, hBB, hCC]
        rfl
      rw [← e3, e9, e8, hci', hci] at e7
      obtain ⟨e10, -⟩ := Prod.mk.inj e7
      obtain ⟨g1, g2⟩ := ih l' s2 s2' t t' e10.symm hrest hrest' hs (by
        intro f hf
        refine hw f ?_
        rw [List.mem_append] at hf
        rcases hf with hf | hf <;> simp [hf])
      exact ⟨g1, by simp [hh, g2]⟩

/-- C132 (order of arrival): if the answer to a region depends on what was handed out with it only, two runs in which
regions were granted around the same seeds in the same order, and all came back, end with the same catalog, bounds and
covariances, in whatever order the answers arrived; and the same rows were handed out. -/
theorem C132_arrival (cat : List (Row K)) (hE : E.OK cat.length) (hloc : SortsLocally E) (bounds : List B) (one : C)
    (work : Held K → List (Option B) → List (Option C) → Reply K B C)
    (s s' : State K B C) (hist hist' : List (Rec K B C))
    (h : Par E cfg (ingest cat bounds one) s hist) (h' : Par E cfg (ingest cat bounds one) s' hist')
    (hseed : hist.map (·.seed) = hist'.map (·.seed))
    (hw : ∀ e ∈ hist ++ hist', ∃ tid, e.reply = some { work e.held e.seenB e.seenC with tid := tid }) :
    s.rows = s'.rows ∧ s.bounds = s'.bounds ∧ s.covs = s'.covs ∧ hist.map (·.held) = hist'.map (·.held) := by
  obtain ⟨t, h1, -, h2, h3, -, -, h4⟩ := C132_serial cat hE hloc bounds one s hist h
  obtain ⟨t', h1', -, h2', h3', -, -, h4'⟩ := C132_serial cat hE hloc bounds one s' hist' h'
  have hall : ∀ e ∈ hist, e.reply ≠ none := by
    intro e he
    obtain ⟨tid, ht⟩ := hw e (by simp [he])
    simp [ht]
  have hall' : ∀ e ∈ hist', e.reply ≠ none := by
    intro e he
    obtain ⟨tid, ht⟩ := hw e (by simp [he])
    simp [ht]
  have hf : ∀ l : List (Rec K B C), (∀ e ∈ l, e.reply ≠ none) → l.filter (fun e => e.reply.isSome) = l := by
    intro l hl
    rw [List.filter_eq_self]
    intro e he
    exact Option.isSome_iff_ne_none.2 (hl e he)
  rw [hf _ hall] at h1
  rw [hf _ hall'] at h1'
  obtain ⟨g1, g2⟩ := seq_same work hist hist' _ _ t t' rfl h1 h1' hseed hw
  refine ⟨?_, ?_, ?_, g2⟩
  · rw [← (h4 hall).1, ← (h4' hall').1]
    exact show (noLog t).rows = (noLog t').rows by rw [g1]
  · rw [← h2, ← h2']
    exact show (noLog t).bounds = (noLog t').bounds by rw [g1]
  · rw [← h3, ← h3']
    exact show (noLog t).covs = (noLog t').covs by rw [g1]

/-! ### The event loop -/

/-- Every source is within the boundary radius of the place at which the tree has it. -/
def Near (E : Env K) (cfg : Config K) (s : State K B C) : Prop :=
  ∀ (k : Nat) (r : Row K), s.rows[k]? = some r → k ∈ E.ball (r.par.ra, r.par.dec) cfg.boundaryRadius

/-- Passes of the event loop (as `Loop`), in which no source strays further than the boundary radius. -/
inductive NearLoop (E : Env K) (cfg : Config K) (draws : Int) : Parent K B C → Parent K B C → Prop
  | refl (p : Parent K B C) : NearLoop E cfg draws p p
  | pass {p p1 p2 : Parent K B C} (inp : Input K C) : NearLoop E cfg draws p p1 → Near E cfg p1.sup →
      undone cfg p1.sup = true → LegalIn E cfg p1 inp →
      pass E cfg draws p1 inp = (p2, none) → NearLoop E cfg draws p p2

theorem NearLoop.loop {draws : Int} {p p' : Parent K B C} (h : NearLoop E cfg draws p p') : Loop E cfg draws p p' := by
  induction h with
  | refl => exact Loop.refl _
  | pass inp _ _ hu hl hp ih => exact Loop.pass inp ih hu hl hp

theorem par_try {s0 : State K B C} (hist : List (Rec K B C)) : ∀ (seeds : List Nat) (s s' : State K B C)
    (o : Option (Held K)), Par E cfg s0 s hist → Near E cfg s → tryCheckout E cfg s seeds = (s', .ok o) →
    ∃ new : List (Rec K B C), Par E cfg s0 s' (hist ++ new) ∧ new.map (·.held) = o.toList ∧
      (∀ e ∈ new, e.seed ∈ seeds ∧ e.reply = none) := by
  intro seeds
  induction seeds with
  | nil =>
    intro s s' o hp _ h
    simp only [tryCheckout] at h
    obtain ⟨rfl, h⟩ := Prod.mk.inj h
    cases h
    exact ⟨[], by simpa using hp, rfl, by simp⟩
  | cons k ks ih =>
    intro s s' o hp hn h
    rw [tryCheckout] at h
    rcases checkout_cases E cfg s k with ⟨e, h'⟩ | h' | ⟨seed, radius, act, fix, hk, hg, h'⟩
    · rw [h'] at h; cases (Prod.mk.inj h).2
    · rw [h'] at h
      obtain ⟨new, h1, h2, h3⟩ := ih s s' o hp hn h
      exact ⟨new, h1, h2, fun e he => ⟨List.mem_cons_of_mem _ (h3 e he).1, (h3 e he).2⟩⟩
    · rw [h'] at h
      obtain ⟨rfl, ho⟩ := Prod.mk.inj h
      obtain rfl := Except.ok.inj ho
      exact ⟨_, Par.checkout k _ _ _ _ hp (Or.inr (hn k seed hk)) h', rfl, by simp⟩

theorem par_checkinAll {s0 : State K B C} (draws : Int) (tid : Nat) :
    ∀ (rs : List (Nat × Held K)) (reps : List (List (Params K) × Option (List C))) (s s' : State K B C)
      (rest : List (Held K)) (hist : List (Rec K B C)),
      List.Forall₂ (fun r rep => rep.1.length = r.2.active.length) rs reps → Par E cfg s0 s hist →
      (open_ hist).Perm (rs.map (·.2) ++ rest) → checkinAll draws tid s (rs.zip reps) = (s', none) →
      ∃ hist' : List (Rec K B C), Par E cfg s0 s' hist' ∧ (open_ hist').Perm rest ∧
        hist'.map (·.seed) = hist.map (·.seed) ∧ hist'.map (·.held) = hist.map (·.held) := by
  intro rs
  induction rs with
  | nil =>
    intro reps s s' rest hist _ hp hperm h
    simp only [List.zip_nil_left, checkinAll] at h
    obtain rfl := (Prod.mk.inj h).1
    exact ⟨hist, hp, by simpa using hperm, rfl, rfl⟩
  | cons r rs ih =>
    intro reps s s' rest hist hF hp hperm h
    cases hF with
    | @cons _ rep _ reps' hlen hF' =>
    simp only [List.zip_cons_cons, checkinAll] at h
    have hm : r.2 ∈ open_ hist := hperm.mem_iff.2 (by simp)
    obtain ⟨e, he, hh⟩ := List.mem_map.1 hm
    rw [List.mem_filter] at he
    obtain ⟨hin, hnone⟩ := he
    have hnone : e.reply = none := by
      cases hr : e.reply with
      | none => rfl
      | some x => rw [hr] at hnone; simp at hnone
    obtain ⟨l1, l2, rfl⟩ := List.append_of_mem hin
    cases hc : checkin s (heldArgs r.2 rep.1 draws rep.2 none (some (toString tid))) with
    | mk s1 err =>
      rw [hc] at h
      cases err with
      | some x => simp only at h; cases (Prod.mk.inj h).2
      | none =>
        simp only at h
        have hnew := Par.checkin e ⟨rep.1, draws, rep.2, none, some (toString tid)⟩ hp hnone
          ⟨by rw [hh]; exact hlen, by intro b hb; cases hb⟩ (by simpa only [callOf, hh] using hc)
        obtain ⟨hist', g1, g2, g3, g4⟩ := ih reps' s1 s' rest _ hF' hnew (by
          have h1 : open_ (l1 ++ e :: l2) = open_ l1 ++ e.held :: open_ l2 := by simp [open_, hnone]
          rw [h1, hh] at hperm
          have h2 := List.perm_middle.symm.trans hperm
          rw [List.map_cons, List.cons_append, List.perm_cons] at h2
          simpa [open_] using h2) h
        exact ⟨hist', g1, g2, by rw [g3]; simp, by rw [g4]; simp⟩

theorem par_loop (n w : Nat) (hE : E.OK n) (draws : Int) (s0 : State K B C) (p0 : Parent K B C) (p : Parent K B C)
    (H0 : PInv n w p0) (hs : Par E cfg s0 p0.sup []) (ho : outs p0 = []) (ht : p0.patchcat = [])
    (h : NearLoop E cfg draws p0 p) :
    ∃ hist : List (Rec K B C), Par E cfg s0 p.sup hist ∧ (open_ hist).Perm (outs p) ∧
      p.patchcat = hist.mapIdx fun i e => (i + 1, e.held.active.map (·.sourceIndex)) := by
  induction h with
  | refl => exact ⟨[], hs, by rw [ho]; exact List.Perm.refl _, by rw [ht]; rfl⟩
  | @pass p1 p2 inp hl hn hu hL hp ih =>
    obtain ⟨hist, h1, h2, h3⟩ := ih
    have H1 := loop_inv hE hl.loop H0
    obtain ⟨hsd, hL⟩ := hL
    unfold Dispatcher.pass at hp
    -- the proposal
    have hprop : ∃ (q1 : Parent K B C) (got : Bool) (hist1 : List (Rec K B C)),
        propose E cfg p1 inp = (q1, .ok got) ∧ Par E cfg s0 q1.sup hist1 ∧ (open_ hist1).Perm (outs q1) ∧
        (q1.patchcat = hist1.mapIdx fun i e => (i + 1, e.held.active.map (·.sourceIndex))) ∧ PInv1 n w q1 := by
      rcases propose_spec (cfg := cfg) hE p1 H1 inp hsd with ⟨e, h⟩ | ⟨h, H'⟩ | ⟨q1, h, H', ht', -, -, -⟩
      · rw [h] at hp; cases (Prod.mk.inj hp).2
      · exact ⟨p1, false, hist, h, h1, h2, h3, H'⟩
      · have h0 := h
        unfold propose at h
        cases htr : tryCheckout E cfg p1.sup inp.seeds with
        | mk s1 res =>
          rw [htr] at h
          cases res with
          | error e => cases (Prod.mk.inj h).2
          | ok o =>
            cases o with
            | none => cases (Prod.mk.inj h).2
            | some hd =>
              obtain ⟨new, g1, g2, g3⟩ := par_try hist inp.seeds p1.sup s1 _ h1 hn htr
              simp only at h
              rcases submit_cases p1.q H1.queue (p1.taskid + 1, hd) with ⟨hi, _⟩ | ⟨c, rest, hi, hsub⟩
              · exact absurd hi H1.idle
              rw [hsub] at h
              obtain ⟨rfl, -⟩ := Prod.mk.inj h
              refine ⟨_, true, hist ++ new, h0, g1, ?_, ?_, H'⟩
              · rw [open_append]
                have : open_ new = [hd] := by
                  rw [← show new.map (·.held) = [hd] from g2]
                  unfold open_
                  rw [List.filter_eq_self.2]
                  intro e he
                  simp [(g3 e he).2]
                rw [this]
                simp only [outs, List.map_append, List.map_cons, List.map_nil]
                exact h2.append_right _
              · have hlen : hist.length = p1.taskid := by
                  have := congrArg List.length H1.cat
                  rw [h3] at this
                  simpa using this
                have hl := congrArg List.length g2
                simp only [List.length_map, Option.toList_some, List.length_singleton] at hl
                obtain ⟨e, rfl⟩ := List.length_eq_one_iff.1 hl
                simp only [List.map_cons, List.map_nil, Option.toList_some, List.cons.injEq, and_true] at g2
                simp only [h3, List.mapIdx_append, List.mapIdx_cons, List.mapIdx_nil, g2, hlen, Nat.zero_add]
    obtain ⟨q1, got, hist1, hpr, g1, g2, g3, H1'⟩ := hprop
    rw [hpr] at hp
    simp only at hp
    obtain ⟨hleg, hrep⟩ := hL q1 got hpr
    unfold absorb at hp
    have hball : blockingOf q1 got ≠ .all := by
      unfold blockingOf; split <;> simp
    rcases collect_cases q1.q H1'.queue _ inp.answer hleg with ⟨_, hb, _⟩ | ⟨hh, _⟩ |
      ⟨hh, _⟩ | ⟨hh, q', idx, hc, Hq', _, hnd, hlt, hne, _, -, hperm⟩
    · exact absurd hb hball
    · exact absurd hh H1'.out
    · exact absurd hh H1'.out
    have hF := hrep q' _ hc
    rw [hc] at hp
    simp only at hp
    cases hci : checkinAll draws q1.taskid q1.sup
        ((idx.filterMap fun i => (q1.q.handles[i]?).map (·.2)).zip inp.replies) with
    | mk s' err =>
      rw [hci] at hp
      cases err with
      | some e => cases (Prod.mk.inj hp).2
      | none =>
        simp only at hp
        obtain rfl := (Prod.mk.inj hp).1
        obtain ⟨hist', k1, k2, -, k3⟩ := par_checkinAll draws q1.taskid _ inp.replies q1.sup s'
          (q'.handles.map fun x => x.2.2) hist1 hF g1 (by
            refine g2.trans ?_
            have := hperm.map (fun x => x.2.2)
            rw [List.map_append] at this
            simpa [outs, List.map_map, Function.comp_def, List.map_filterMap] using this) hci
        refine ⟨hist', k1, k2, ?_⟩
        have hm : ∀ l : List (Rec K B C), (l.mapIdx fun i e => (i + 1, e.held.active.map (·.sourceIndex))) =
            (l.map (·.held)).mapIdx fun i h => (i + 1, h.active.map (·.sourceIndex)) := by
          intro l
          apply List.ext_getElem?
          intro i
          simp [List.getElem?_mapIdx, List.getElem?_map, Option.map_map, Function.comp_def]
        simp only [g3, hm hist', hm hist1, k3]

/-- C132 (event loop): whatever the number of workers and the order in which they answer, after any number of passes the
catalog, bounds, covariances and per-source logs are those of a run that fits the regions checked in so far one after the
other, in the order of their task numbers; what is missing are the regions still out.  (`hist` lists the regions by task
number, as the written list of tasks does.) -/
theorem C132_parent (draws : Int) (cat : List (Row K)) (hE : E.OK cat.length) (hloc : SortsLocally E) (bounds : List B)
    (one : C) (w : Nat) (hw : 1 ≤ w) (p : Parent K B C)
    (hp : NearLoop E cfg draws (start (ingest cat bounds one) w) p) :
    ∃ (hist : List (Rec K B C)) (t : State K B C),
      p.patchcat = (hist.mapIdx fun i e => (i + 1, e.held.active.map (·.sourceIndex))) ∧
      ((hist.filter fun e => e.reply.isNone).map (·.held)).Perm (p.q.handles.map fun x => x.2.2) ∧
      Seq E cfg (ingest cat bounds one) (hist.filter fun e => e.reply.isSome) t ∧
      t.rows = p.sup.rows.map (fun r => { r with isActive := false, isValid := true }) ∧
      t.bounds = p.sup.bounds ∧ t.covs = p.sup.covs ∧
      (∀ i, (logGet t.sourcelog i).getD [] = (logGet p.sup.sourcelog i).getD []) ∧
      t.patchlog.Perm p.sup.patchlog ∧ (p.q.handles = [] → t.rows = p.sup.rows) := by
  obtain ⟨hist, h1, h2, h3⟩ := par_loop cat.length w hE draws (ingest cat bounds one) _ p
    (pinv_start _ (inv_fresh cat bounds one) rfl hw) Par.start rfl rfl hp
  obtain ⟨t, g1, g2, g3, g4, g5, g6, g7⟩ := C132_serial cat hE hloc bounds one p.sup hist h1
  refine ⟨hist, t, h3, h2, g1, g2, g3, g4, g5, g6, ?_⟩
  intro h0
  refine (g7 ?_).1
  intro e he hn
  have := h2.mem_iff.1 (mem_open _ _ he hn)
  simp [outs, h0] at this

end

/-! ### Cases -/

theorem insertionSort_congr {α : Type} (r r' : α → α → Prop) [DecidableRel r] [DecidableRel r'] :
    ∀ l : List α, (∀ x ∈ l, ∀ y ∈ l, r x y ↔ r' x y) → l.insertionSort r = l.insertionSort r' := by
  intro l
  induction l with
  | nil => intro _; rfl
  | cons a l ih =>
    intro h
    rw [List.insertionSort_cons, List.insertionSort_cons, ih (fun x hx y hy => h x (by simp [hx]) y (by simp [hy]))]
    have hl : ∀ x ∈ l.insertionSort r', x ∈ l := fun x hx => (List.mem_insertionSort r').1 hx
    generalize l.insertionSort r' = m at hl
    induction m with
    | nil => rfl
    | cons b m ihm =>
      rw [List.orderedInsert_cons, List.orderedInsert_cons]
      have hb := h a (by simp) b (by simp [hl b (by simp)])
      by_cases hr : r a b
      · rw [if_pos hr, if_pos (hb.1 hr)]
      · rw [if_neg hr, if_neg (fun h' => hr (hb.2 h')), ihm (fun x hx => hl x (by simp [hx]))]

/-- The sort of the examples is local. -/
theorem lineEnv_local (pos : List Int) : SortsLocally (lineEnv pos) := by
  intro key key' l h
  apply insertionSort_congr
  intro x hx y hy
  rw [h x hx, h y hy]

/-- The rows of a granted region. -/
def heldOf : Outcome Int → Held Int
  | .region _ _ a f => ⟨a, f⟩
  | _ => ⟨[], []⟩

/-- A region was granted. -/
def granted : Outcome Int → Bool
  | .region _ _ _ _ => true
  | _ => false

theorem granted_eq (o : Outcome Int) (h : granted o = true) :
    ∃ c ρ, o = .region c ρ (heldOf o).active (heldOf o).fixed := by
  cases o with
  | raised e => cases h
  | invalid => cases h
  | region c ρ a f => exact ⟨c, ρ, rfl⟩

/-- The ingested catalog of the example: sources at 0, 3 and 5. -/
def s00 : State Int Nat Nat := ingest cat3 [7, 8, 9] 1
/-- A region around source 0 is out; source 1 is fixed in it. -/
def s01 : State Int Nat Nat := (checkout env3 cfg3 s00 0).1
/-- A region around source 2 is out as well; source 1 is active in it. -/
def s02 : State Int Nat Nat := (checkout env3 cfg3 s01 2).1
/-- The two regions. -/
def heldA : Held Int := heldOf (checkout env3 cfg3 s00 0).2
/-- The second. -/
def heldB : Held Int := heldOf (checkout env3 cfg3 s01 2).2
/-- What comes back for the first region. -/
def repA : Reply Int Nat Nat := ⟨[(mkRow 1 0).par], 5, some [2], none, some "1"⟩
/-- What comes back for the second region: sources 2 and 1 have moved. -/
def repB : Reply Int Nat Nat := ⟨[(mkRow 6 0).par, (mkRow 4 0).par], 5, some [3], some [10, 11], some "2"⟩
/-- The second region comes back first. -/
def s03 : State Int Nat Nat := (checkin s02 (callOf heldB repB)).1
/-- Then the first. -/
def s04 : State Int Nat Nat := (checkin s03 (callOf heldA repA)).1
/-- The record of the first region. -/
def recA : Rec Int Nat Nat := ⟨0, heldA, [some 7], [some 1], some repA⟩
/-- The record of the second region. -/
def recB : Rec Int Nat Nat := ⟨2, heldB, [some 9, some 8], [some 1, some 1], some repB⟩

/-- The parallel run of the example. -/
theorem parAB : Par env3 cfg3 s00 s04 [recA, recB] := by
  obtain ⟨c, ρ, h⟩ := granted_eq (checkout env3 cfg3 s00 0).2 (by decide +kernel)
  obtain ⟨c', ρ', h'⟩ := granted_eq (checkout env3 cfg3 s01 2).2 (by decide +kernel)
  have i0 : Idle s00 0 := by
    intro r hr
    have : (s00.rows[0]?).map (·.isActive) = some false := by decide +kernel
    rw [hr] at this
    exact Option.some.inj this
  have i2 : Idle s01 2 := by
    intro r hr
    have : (s01.rows[2]?).map (·.isActive) = some false := by decide +kernel
    rw [hr] at this
    exact Option.some.inj this
  have p1 := Par.checkout (s' := s01) 0 c ρ heldA.active heldA.fixed (Par.start (E := env3) (cfg := cfg3) (s0 := s00))
    (Or.inl i0) (Prod.ext rfl h)
  have p2 := Par.checkout (s' := s02) 2 c' ρ' heldB.active heldB.fixed p1 (Or.inl i2) (Prod.ext rfl h')
  have e1 : (checkin s02 (callOf heldB repB)).2 = none := by decide +kernel
  have e2 : (checkin s03 (callOf heldA repA)).2 = none := by decide +kernel
  have p3 := Par.checkin (s' := s03) (l1 := [{
        seed := 0, held := ⟨heldA.active, heldA.fixed⟩
        seenB := heldA.active.map fun r => s00.bounds[r.sourceIndex]?
        seenC := heldA.active.map fun r => s00.covs[r.sourceIndex]?
        reply := none }]) (l2 := []) _ repB p2 rfl ⟨by decide +kernel, by decide +kernel⟩ (Prod.ext rfl e1)
  have p4 := Par.checkin (s' := s04) (l1 := []) _ repA p3 rfl ⟨by decide +kernel, by decide +kernel⟩ (Prod.ext rfl e2)
  have a1 : heldA.active.map (fun r => s00.bounds[r.sourceIndex]?) = [some 7] := by decide +kernel
  have a2 : heldA.active.map (fun r => s00.covs[r.sourceIndex]?) = [some 1] := by decide +kernel
  have b1 : heldB.active.map (fun r => s01.bounds[r.sourceIndex]?) = [some 9, some 8] := by decide +kernel
  have b2 : heldB.active.map (fun r => s01.covs[r.sourceIndex]?) = [some 1, some 1] := by decide +kernel
  rw [a1, a2, b1, b2] at p4
  exact p4

/-- The example meets the hypotheses of `C132_serial`: two regions, returned in reverse order, with a shared source. -/
example : env3.OK cat3.length ∧ SortsLocally env3 ∧ Par env3 cfg3 (ingest cat3 [7, 8, 9] 1) s04 [recA, recB] ∧
    s04.rows.map (fun r => (r.par.ra, r.nIter)) = [(1, 5), (4, 5), (6, 5)] ∧ s04.bounds = [7, 11, 10] :=
  ⟨lineEnv_ok _, lineEnv_local _, parAB, by decide +kernel, by decide +kernel⟩

/-- C132 (the order matters): the sequential run must follow the order of checkout; fitting the two regions of the example
in the order in which they came back would hand the first one a moved neighbour. -/
theorem C132_not_arrival_order : Par env3 cfg3 s00 s04 [recA, recB] ∧ ¬ ∃ t, Seq env3 cfg3 s00 [recB, recA] t := by
  refine ⟨parAB, ?_⟩
  rintro ⟨t, h⟩
  cases h with
  | @task _ s1 s2 _ _ _ r c ρ _ hco _ _ hr _ hci hrest =>
  cases hrest with
  | @task _ s1' s2' _ _ _ r' c' ρ' _ hco' _ _ _ _ _ _ =>
  obtain rfl : repB = r := Option.some.inj hr
  have e1 : s1 = (checkout env3 cfg3 s00 2).1 := (congrArg Prod.fst hco).symm
  subst e1
  have e2 : s2 = (checkin (checkout env3 cfg3 s00 2).1 (callOf heldB repB)).1 := (congrArg Prod.fst hci).symm
  subst e2
  have e3 := congrArg (fun z => (heldOf z.2).fixed) hco'
  simp only [heldOf] at e3
  have : (heldOf (checkout env3 cfg3 (checkin (checkout env3 cfg3 s00 2).1 (callOf heldB repB)).1 0).2).fixed ≠
    heldA.fixed := by decide +kernel
  exact this e3

/-- Executable form of `Near`. -/
def nearB (E : Env Int) (cfg : Config Int) (s : State Int Nat Nat) : Bool :=
  (s.rows.mapIdx fun k r => decide (k ∈ E.ball (r.par.ra, r.par.dec) cfg.boundaryRadius)).all id

theorem nearB_sound (E : Env Int) (cfg : Config Int) (s : State Int Nat Nat) (h : nearB E cfg s = true) :
    Near E cfg s := by
  intro k r hr
  unfold nearB at h
  rw [List.all_eq_true] at h
  have := h (decide (k ∈ E.ball (r.par.ra, r.par.dec) cfg.boundaryRadius)) (by
    apply List.mem_of_getElem? (i := k)
    rw [List.getElem?_mapIdx, hr]
    rfl)
  simpa using this

/-- Executable check of a list of passes. -/
def okNear (E : Env Int) (cfg : Config Int) (draws : Int) : Parent Int Nat Nat → List (Input Int Nat) → Bool
  | _, [] => true
  | p, i :: is => nearB E cfg p.sup && undone cfg p.sup && legalInB E cfg p i && (pass E cfg draws p i).2.isNone &&
      okNear E cfg draws (pass E cfg draws p i).1 is

theorem okNear_sound (E : Env Int) (cfg : Config Int) (draws : Int) (p0 : Parent Int Nat Nat) :
    ∀ (is : List (Input Int Nat)) (p : Parent Int Nat Nat), NearLoop E cfg draws p0 p →
      okNear E cfg draws p is = true → NearLoop E cfg draws p0 (passes E cfg draws p is) := by
  intro is
  induction is with
  | nil => intro p h _; exact h
  | cons i is ih =>
    intro p h hk
    simp only [okNear, Bool.and_eq_true] at hk
    obtain ⟨⟨⟨⟨h0, h1⟩, h2⟩, h3⟩, h4⟩ := hk
    refine ih _ (NearLoop.pass i h (nearB_sound _ _ _ h0) h1 (legalInB_sound _ _ _ _ h2) ?_) h4
    have : (pass E cfg draws p i).2 = none := by simpa using h3
    rw [← this]

/-- The slow-worker schedule meets the hypotheses of `C132_parent`: five tasks, one of them still out at the end. -/
example : NearLoop envP cfgP 5 startP (passes envP cfgP 5 startP schedP) ∧ envP.OK catP.length ∧ SortsLocally envP ∧
    (passes envP cfgP 5 startP schedP).patchcat = [(1, [0]), (2, [1]), (3, [2]), (4, [3]), (5, [1])] ∧
    (passes envP cfgP 5 startP schedP).q.handles.length = 1 :=
  ⟨okNear_sound _ _ _ _ schedP startP (NearLoop.refl _) (by decide +kernel), lineEnv_ok _, lineEnv_local _,
    by decide +kernel, by decide +kernel⟩

end Forcepho.Dispatcher.Serial
