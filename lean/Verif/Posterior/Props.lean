import Verif.Posterior.Model
import Mathlib.Algebra.BigOperators.Group.Finset.Basic
import Mathlib.Algebra.BigOperators.Intervals
import Mathlib.Tactic.Ring

/-! # Properties C26–C28 and C69: the cache and the stacked gradient -/

set_option autoImplicit false

namespace Forcepho.Posterior

variable {K R : Type} [Neg R] [Div R]

/-- The address a call asks about. -/
def Op.asked : Op K R → Option Nat
  | .lnprob a => some a
  | .lnprobGrad a => some a
  | .both a => some a
  | .nll a => some a
  | .nllNoGrad a => some a
  | _ => none

/-- Use the result of an evaluation, or report that it raised. -/
def withValue (o : Option (R × List R)) (use : R → List R → Ans R) : Ans R :=
  match o with
  | some r => use r.1 r.2
  | none => .raised

/-- Specification: the answer of an object without a cache to a call, given the current contents
of the arrays and the current mode. -/
def plainAnswer (e : Env K R) (heap : Nat → List K) (sampling : Bool) : Op K R → Ans R
  | .lnprob a => withValue (e.F sampling (heap a)) fun l _ => .val l
  | .lnprobGrad a => withValue (e.F sampling (heap a)) fun _ g => .vec g
  | .both a => withValue (e.F sampling (heap a)) fun l g => .pair l g
  | .nll a => withValue (e.F sampling (heap a)) fun l g =>
      .pair (-l / e.ndof) (g.map fun x => -x / e.ndof)
  | .nllNoGrad a => withValue (e.F sampling (heap a)) fun l _ => .val (-l / e.ndof)
  | _ => .unit

/-- Specification: the answers of an object without a cache to a history. -/
def plainRun (e : Env K R) (heap : Nat → List K) (sampling : Bool) : List (Op K R) → List (Ans R)
  | [] => []
  | op :: ops =>
    let heap' := match op with
      | .write a v => Function.update heap a v
      | _ => heap
    let sampling' := match op with
      | .setSampling b => b
      | _ => sampling
    plainAnswer e heap sampling op :: plainRun e heap' sampling' ops

/-- Vectors numpy cannot tell apart get the same value. -/
def Respects (e : Env K R) : Prop :=
  ∀ (b : Bool) (z w : List K), z.length = w.length → anyNe e z w = false → e.F b z = e.F b w

/-- A careful caller: queries arrays of the problem's dimension that are not all `-99`, never
writes to an array after having passed it to a query, does not change the mode, and writes into
returned gradients only as long as none came from `lnprob_grad` or `lnprob_and_grad` (the
gradient `nll` returns is the caller's own).  `used` are the arrays passed so far, `given` says
whether such a gradient was returned. -/
def Careful (e : Env K R) (n : Nat) : (Nat → List K) → List Nat → Bool → List (Op K R) → Prop
  | _, _, _, [] => True
  | heap, used, given, op :: ops =>
    match op with
    | .write a v => a ∉ used ∧ Careful e n (Function.update heap a v) used given ops
    | .setSampling _ => False
    | .smash _ => given = false ∧ Careful e n heap used given ops
    | .residuals _ => Careful e n heap used given ops
    | .lnprobGrad a | .both a =>
      (heap a).length = n ∧ anyNeSentinel e (heap a) = true ∧ Careful e n heap (a :: used) true ops
    | .lnprob a | .nll a | .nllNoGrad a =>
      (heap a).length = n ∧ anyNeSentinel e (heap a) = true ∧ Careful e n heap (a :: used) given ops

/-- The cache holds the values for the array it refers to, in the current mode. -/
def Fresh (e : Env K R) (n : Nat) (s : State K R) (used : List Nat) : Prop :=
  match s.zref with
  | none => True
  | some b => b ∈ used ∧ (s.heap b).length = n ∧
      ∃ l g, s.lnp = some l ∧ s.grad = some g ∧ e.F s.sampling (s.heap b) = some (l, g)

omit [Neg R] [Div R] in
/-- A query on a fresh state. -/
theorem query_fresh (e : Env K R) (hF : Respects e) (n : Nat) (s : State K R) (used : List Nat)
    (hf : Fresh e n s used) (a : Nat) (hl : (s.heap a).length = n)
    (hs : anyNeSentinel e (s.heap a) = true) (use : R → List R → Ans R) (keep : Bool) :
    (query e s a use keep).2 = withValue (e.F s.sampling (s.heap a)) use ∧
    Fresh e n (query e s a use keep).1 (a :: used) ∧
    (query e s a use keep).1.heap = s.heap ∧ (query e s a use keep).1.sampling = s.sampling := by
  have heval : stale e s a = true → (query e s a use keep).2 =
      withValue (e.F s.sampling (s.heap a)) use ∧
      Fresh e n (query e s a use keep).1 (a :: used) ∧
      (query e s a use keep).1.heap = s.heap ∧ (query e s a use keep).1.sampling = s.sampling := by
    intro hst
    unfold query refresh evaluate
    rw [if_pos hst]
    cases hv : e.F s.sampling (s.heap a) with
    | none =>
      refine ⟨rfl, ?_, rfl, rfl⟩
      unfold Fresh at hf ⊢
      cases hz : s.zref with
      | none => trivial
      | some b => rw [hz] at hf; exact ⟨List.mem_cons_of_mem _ hf.1, hf.2⟩
    | some r =>
      obtain ⟨l, g⟩ := r
      exact ⟨rfl, ⟨by simp, hl, l, g, rfl, rfl, hv⟩, rfl, rfl⟩
  cases hst : stale e s a with
  | true => exact heval hst
  | false =>
    unfold stale at hst
    cases hz : s.zref with
    | none => rw [hz] at hst; simp only at hst; rw [hs] at hst; cases hst
    | some b =>
      rw [hz] at hst
      simp only at hst
      have hf' := hf
      unfold Fresh at hf'
      rw [hz] at hf'
      obtain ⟨hb, hbl, l, g, h1, h2, h3⟩ := hf'
      have heq := hF s.sampling (s.heap a) (s.heap b) (hl.trans hbl.symm) hst
      have hq : query e s a use keep = ({ s with held := s.held || keep }, use l g) := by
        unfold query refresh
        have : stale e s a = false := by unfold stale; rw [hz]; exact hst
        rw [this]
        simp [readCache, h1, h2]
      rw [hq, heq, h3]
      refine ⟨rfl, ?_, rfl, rfl⟩
      unfold Fresh
      simp only [hz]
      exact ⟨List.mem_cons_of_mem _ hb, hbl, l, g, h1, h2, h3⟩

omit [Neg R] [Div R] in
/-- A query that does not hand out the stored gradient does not mark it as handed out. -/
theorem query_held (e : Env K R) (s : State K R) (a : Nat) (use : R → List R → Ans R)
    (keep : Bool) (h : (query e s a use keep).1.held = true) : s.held = true ∨ keep = true := by
  unfold query refresh evaluate at h
  cases hst : stale e s a with
  | true =>
    simp only [hst, if_true] at h
    cases hv : e.F s.sampling (s.heap a) with
    | none => simp only [hv] at h; exact Or.inl h
    | some r =>
      obtain ⟨l, g⟩ := r
      simp only [hv, readCache, Bool.false_or] at h
      exact Or.inr h
  | false =>
    simp only [hst, Bool.false_eq_true, if_false] at h
    cases hr : readCache s with
    | none => simp only [hr] at h; exact Or.inl h
    | some r =>
      obtain ⟨l, g⟩ := r
      simp only [hr, Bool.or_eq_true] at h
      exact h

/-- A careful history from a fresh state answers as if there were no cache. -/
theorem careful_run (e : Env K R) (hF : Respects e) (n : Nat) : ∀ (ops : List (Op K R))
    (s : State K R) (used : List Nat) (given : Bool), Fresh e n s used →
    (s.held = true → given = true) → Careful e n s.heap used given ops →
    (run e s ops).2 = plainRun e s.heap s.sampling ops := by
  intro ops
  induction ops with
  | nil => intro s used _ _ _ _; rfl
  | cons op ops ih =>
    intro s used given hf hh hc
    have hq : ∀ (a : Nat) (use : R → List R → Ans R) (keep given' : Bool),
        (s.heap a).length = n → anyNeSentinel e (s.heap a) = true →
        (s.held = true ∨ keep = true → given' = true) →
        Careful e n s.heap (a :: used) given' ops →
        (query e s a use keep).2 :: (run e (query e s a use keep).1 ops).2 =
        withValue (e.F s.sampling (s.heap a)) use :: plainRun e s.heap s.sampling ops := by
      intro a use keep given' h1 h2 hk h3
      obtain ⟨q1, q2, q3, q4⟩ := query_fresh e hF n s used hf a h1 h2 use keep
      rw [q1]
      congr 1
      have := ih (query e s a use keep).1 (a :: used) given' q2
        (fun h => hk (query_held e s a use keep h)) (by rw [q3]; exact h3)
      rw [q3, q4] at this
      exact this
    have hno : s.held = true ∨ false = true → given = true := fun h => by
      rcases h with h | h
      · exact hh h
      · cases h
    cases op with
    | lnprob a => exact hq a _ false given hc.1 hc.2.1 hno hc.2.2
    | lnprobGrad a => exact hq a _ true true hc.1 hc.2.1 (fun _ => rfl) hc.2.2
    | both a => exact hq a _ true true hc.1 hc.2.1 (fun _ => rfl) hc.2.2
    | nll a => exact hq a _ false given hc.1 hc.2.1 hno hc.2.2
    | nllNoGrad a => exact hq a _ false given hc.1 hc.2.1 hno hc.2.2
    | write a v =>
      obtain ⟨h1, h2⟩ := hc
      have hf' : Fresh e n { s with heap := Function.update s.heap a v } used := by
        unfold Fresh at hf ⊢
        simp only
        cases hz : s.zref with
        | none => trivial
        | some b =>
          rw [hz] at hf
          obtain ⟨hb, hr⟩ := hf
          have hne : b ≠ a := fun h => h1 (h ▸ hb)
          refine ⟨hb, ?_⟩
          simp only [Function.update_of_ne hne]
          exact hr
      have := ih { s with heap := Function.update s.heap a v } used given hf' hh h2
      exact congrArg (Ans.unit :: ·) this
    | setSampling b => exact hc.elim
    | smash g =>
      obtain ⟨h1, h2⟩ := hc
      have hn : ¬ (s.held = true) := fun h => by rw [hh h] at h1; cases h1
      have h3 : (run e s (.smash g :: ops)).2 = Ans.unit :: (run e s ops).2 := by
        simp only [run, step, if_neg hn]
      rw [h3]
      exact congrArg (Ans.unit :: ·) (ih s used given hf hh h2)
    | residuals q =>
      have := ih s used given hf hh hc
      exact congrArg (Ans.unit :: ·) this

/-- C26 (and C27, partial): for every history of queries of every kind on any arrays, including
in-place writes to arrays that have not been passed to a query yet, writes into gradients
returned by `nll`, and residual computations in between, each answer is the one an object without a cache would give.
Missing for C27: writes to an array after it was queried, and writes into gradients returned by
`lnprob_grad` or `lnprob_and_grad`; both refuted below. -/
theorem C26_C27_partial (e : Env K R) (hF : Respects e) (n : Nat) (heap : Nat → List K)
    (sampling : Bool) (ops : List (Op K R)) (hc : Careful e n heap [] false ops) :
    (run e (init heap sampling) ops).2 = plainRun e heap sampling ops :=
  careful_run e hF n ops (init heap sampling) [] false trivial (fun h => by cases h) hc

/-- C26, for callers who only query: no condition on aliasing is left. -/
theorem C26_transparent (e : Env K R) (hF : Respects e) (n : Nat) (heap : Nat → List K)
    (sampling : Bool) (ops : List (Op K R))
    (hq : ∀ op ∈ ops, ∃ a, op.asked = some a ∧ (heap a).length = n ∧
      anyNeSentinel e (heap a) = true) :
    (run e (init heap sampling) ops).2 = ops.map (plainAnswer e heap sampling) := by
  have hc : ∀ (ops : List (Op K R)) (used : List Nat) (given : Bool),
      (∀ op ∈ ops, ∃ a, op.asked = some a ∧ (heap a).length = n ∧
        anyNeSentinel e (heap a) = true) → Careful e n heap used given ops ∧
      plainRun e heap sampling ops = ops.map (plainAnswer e heap sampling) := by
    intro ops
    induction ops with
    | nil => intro used _ _; exact ⟨trivial, rfl⟩
    | cons op ops ih =>
      intro used given h
      obtain ⟨a, h1, h2, h3⟩ := h op (by simp)
      have h' := fun u v => ih u v (fun x hx => h x (by simp [hx]))
      cases op <;> first
        | (cases h1
           exact ⟨⟨h2, h3, (h' _ _).1⟩, congrArg (_ :: ·) (h' [] false).2⟩)
        | (cases h1)
  rw [C26_C27_partial e hF n heap sampling ops (hc ops [] false hq).1, (hc ops [] false hq).2]

/-- Specification of the number of evaluations: one for each query whose point differs from the
point of the last query (or is the first). -/
def changes (e : Env K R) : Option (List K) → List (List K) → Nat
  | _, [] => 0
  | none, z :: zs => 1 + changes e (some z) zs
  | some w, z :: zs => (if anyNe e z w then 1 else 0) + changes e (some z) zs

/-- Numbers without NaN: numpy's `!=` is inequality. -/
def Exact (e : Env K R) : Prop := ∀ x y, e.ne x y = false ↔ x = y

omit [Neg R] [Div R] in
theorem anyNe_exact (e : Env K R) (hE : Exact e) : ∀ z w : List K, z.length = w.length →
    (anyNe e z w = false ↔ z = w) := by
  intro z
  induction z with
  | nil =>
    intro w h
    cases w with
    | nil => simp [anyNe]
    | cons y w => simp at h
  | cons x z ih =>
    intro w h
    cases w with
    | nil => simp at h
    | cons y w =>
      have := ih w (by simpa using h)
      simp only [anyNe, List.zip_cons_cons, List.any_cons, Bool.or_eq_false_iff, List.cons.injEq]
      rw [hE x y]
      exact and_congr_right fun _ => this

/-- A query on array `a` that an uncached evaluation would answer. -/
def Asks (e : Env K R) (n : Nat) (heap : Nat → List K) (sampling : Bool) (op : Op K R) : Prop :=
  ∃ a, op.asked = some a ∧ (heap a).length = n ∧ anyNeSentinel e (heap a) = true ∧
    ∃ r, e.F sampling (heap a) = some r

/-- The object's cache refers to an array with the contents `last`. -/
def Tracks (n : Nat) (heap : Nat → List K) (sampling : Bool) (s : State K R)
    (last : Option (List K)) : Prop :=
  s.heap = heap ∧ s.sampling = sampling ∧
  match s.zref, last with
  | none, none => True
  | some b, some w => (heap b).length = n ∧ w = heap b ∧ s.lnp.isSome = true ∧
      s.grad.isSome = true
  | _, _ => False

/-- One evaluation unless the point is the last one. -/
def cost (e : Env K R) (z : List K) : Option (List K) → Nat
  | none => 1
  | some w => if anyNe e z w then 1 else 0

theorem step_tracks (e : Env K R) (hE : Exact e) (n : Nat) (heap : Nat → List K)
    (sampling : Bool) (s : State K R) (last : Option (List K))
    (ht : Tracks n heap sampling s last) (op : Op K R) (a : Nat) (ha : op.asked = some a)
    (hl : (heap a).length = n) (hs : anyNeSentinel e (heap a) = true)
    (hr : ∃ r, e.F sampling (heap a) = some r) :
    Tracks n heap sampling (step e s op).1 (some (heap a)) ∧
    (step e s op).1.ncall = s.ncall + cost e (heap a) last := by
  obtain ⟨hh, hsm, hlast⟩ := ht
  obtain ⟨⟨l, g⟩, hr⟩ := hr
  have hqy : ∀ (use : R → List R → Ans R) (keep : Bool),
      Tracks n heap sampling (query e s a use keep).1 (some (heap a)) ∧
      (query e s a use keep).1.ncall = s.ncall + cost e (heap a) last := by
    intro use keep
    have hev : stale e s a = true → (query e s a use keep).1 =
        { s with zref := some a, lnp := some l, grad := some g,
                 ncall := s.ncall + 1, held := false || keep } := by
      intro hst
      unfold query refresh evaluate
      rw [if_pos hst, hh, hsm, hr]
      rfl
    cases hz : s.zref with
    | none =>
      rw [hz] at hlast
      cases last with
      | some w => exact hlast.elim
      | none =>
        rw [hev (by unfold stale; rw [hz, hh]; exact hs)]
        exact ⟨⟨hh, hsm, hl, rfl, rfl, rfl⟩, rfl⟩
    | some b =>
      rw [hz] at hlast
      cases last with
      | none => exact hlast.elim
      | some w =>
        obtain ⟨g1, rfl, g3, g4⟩ := hlast
        have hst : stale e s a = anyNe e (heap a) (heap b) := by
          unfold stale; rw [hz, hh]
        cases hne : anyNe e (heap a) (heap b) with
        | true =>
          rw [hev (hst.trans hne)]
          exact ⟨⟨hh, hsm, hl, rfl, rfl, rfl⟩, by simp [cost, hne]⟩
        | false =>
          have heq := (anyNe_exact e hE _ _ (hl.trans g1.symm)).1 hne
          obtain ⟨l', hl'⟩ := Option.isSome_iff_exists.1 g3
          obtain ⟨g', hg'⟩ := Option.isSome_iff_exists.1 g4
          have hqs : (query e s a use keep).1 = { s with held := s.held || keep } := by
            unfold query refresh
            rw [hst, hne]
            simp [readCache, hl', hg']
          rw [hqs]
          refine ⟨⟨hh, hsm, ?_⟩, by simp [cost, hne]⟩
          simp only [hz]
          exact ⟨g1, heq, g3, g4⟩
  cases op <;> cases ha <;> exact hqy _ _

theorem run_tracks (e : Env K R) (hE : Exact e) (n : Nat) (heap : Nat → List K)
    (sampling : Bool) : ∀ (ops : List (Op K R)) (s : State K R) (last : Option (List K)),
    Tracks n heap sampling s last → (∀ op ∈ ops, Asks e n heap sampling op) →
    Tracks n heap sampling (run e s ops).1
      (((ops.filterMap Op.asked).map heap).getLast?.or last) ∧
    (run e s ops).1.ncall = s.ncall + changes e last ((ops.filterMap Op.asked).map heap) := by
  intro ops
  induction ops with
  | nil => intro s last ht _; exact ⟨by simpa [run] using ht, by cases last <;> rfl⟩
  | cons op ops ih =>
    intro s last ht h
    obtain ⟨a, h1, h2, h3, h4⟩ := h op (by simp)
    obtain ⟨t1, t2⟩ := step_tracks e hE n heap sampling s last ht op a h1 h2 h3 h4
    obtain ⟨i1, i2⟩ := ih _ _ t1 (fun x hx => h x (by simp [hx]))
    have hfm : (op :: ops).filterMap Op.asked = a :: ops.filterMap Op.asked := by
      rw [List.filterMap_cons, h1]
    rw [hfm, List.map_cons]
    constructor
    · have : ((heap a :: (ops.filterMap Op.asked).map heap).getLast?.or last) =
          (((ops.filterMap Op.asked).map heap).getLast?.or (some (heap a))) := by
        rw [List.getLast?_cons]
        cases ((ops.filterMap Op.asked).map heap).getLast? <;> simp
      rw [this]
      exact i1
    · simp only [run]
      rw [i2, t2]
      cases last with
      | none => simp only [changes, cost]; omega
      | some w => simp only [changes, cost]; omega

/-- C26: the number of likelihood evaluations in a history of queries is the number of times the
queried point changed: repeated queries at one point evaluate once. -/
theorem C26_ncall (e : Env K R) (hE : Exact e) (n : Nat) (heap : Nat → List K) (sampling : Bool)
    (ops : List (Op K R)) (hq : ∀ op ∈ ops, Asks e n heap sampling op) :
    (run e (init heap sampling) ops).1.ncall =
      changes e none ((ops.filterMap Op.asked).map heap) := by
  have := (run_tracks e hE n heap sampling ops (init heap sampling) none ⟨rfl, rfl, trivial⟩ hq).2
  rw [this]
  simp [init]

/-! ### C69: switching the mode -/

theorem run_append (e : Env K R) : ∀ (xs ys : List (Op K R)) (s : State K R),
    run e s (xs ++ ys) = ((run e (run e s xs).1 ys).1, (run e s xs).2 ++ (run e (run e s xs).1 ys).2) := by
  intro xs
  induction xs with
  | nil => intro ys s; rfl
  | cons x xs ih =>
    intro ys s
    simp only [List.cons_append, run]
    rw [ih]

/-- C69, partial: after switching the mode, a query at a point other than the one queried last is
answered in the new mode.
Missing: a query at the point queried last; refuted below. -/
theorem C69_switch_partial (e : Env K R) (hE : Exact e) (n : Nat) (heap : Nat → List K)
    (b b' : Bool) (ops : List (Op K R)) (hq : ∀ op ∈ ops, Asks e n heap b op) (op : Op K R) (a : Nat)
    (ha : op.asked = some a) (hl : (heap a).length = n)
    (hs : anyNeSentinel e (heap a) = true)
    (hne : ∀ w ∈ ((ops.filterMap Op.asked).map heap).getLast?, heap a ≠ w) :
    (run e (init heap b) (ops ++ [.setSampling b', op])).2 =
      ops.map (plainAnswer e heap b) ++ [.unit, plainAnswer e heap b' op] := by
  have hF : Respects e := by
    intro c z w hzw h
    rw [(anyNe_exact e hE z w hzw).1 h]
  have h1 := C26_transparent e hF n heap b ops (fun op hop => by
    obtain ⟨a, x, y, z, _⟩ := hq op hop; exact ⟨a, x, y, z⟩)
  obtain ⟨⟨t1, t2, t3⟩, _⟩ :=
    run_tracks e hE n heap b ops (init heap b) none ⟨rfl, rfl, trivial⟩ hq
  rw [run_append, h1]
  congr 1
  simp only [run, step]
  congr 1
  congr 1
  set s := (run e (init heap b) ops).1 with hs'
  have hst : stale e { s with sampling := b' } a = true := by
    unfold stale
    simp only [t1]
    cases hz : s.zref with
    | none => exact hs
    | some c =>
      rw [hz] at t3
      simp only [Option.or_none] at t3
      cases hlast : ((ops.filterMap Op.asked).map heap).getLast? with
      | none => rw [hlast] at t3; exact t3.elim
      | some w =>
        rw [hlast] at t3
        obtain ⟨u1, u2, _⟩ := t3
        by_contra hh
        have hh' : anyNe e (heap a) (heap c) = false := by simpa using hh
        have := (anyNe_exact e hE _ _ (hl.trans u1.symm)).1 hh'
        exact hne w hlast (this.trans u2.symm)
  have hqy : ∀ (use : R → List R → Ans R) (keep : Bool),
      (query e { s with sampling := b' } a use keep).2 = withValue (e.F b' (heap a)) use := by
    intro use keep
    unfold query refresh evaluate
    rw [if_pos hst]
    simp only [t1]
    cases e.F b' (heap a) with
    | none => rfl
    | some r => rfl
  cases op <;> cases ha <;> exact congrArg (fun x => [x]) (hqy _ _)

/-! ### Witnesses -/

/-- A posterior over integers: the value is minus the sum of squares, plus 1000 when sampling. -/
def toy : Env Int Int where
  ne := fun x y => x != y
  sentinel := -99
  F := fun b z => some ((if b then 1000 else 0) - (z.map fun x => x * x).sum, z.map fun x => -2 * x)
  ndof := 1

theorem toy_exact : Exact toy := by intro x y; simp [toy]

/-- Two caller arrays. -/
def toyHeap : Nat → List Int := fun a => if a = 0 then [1, 2] else [3, 4]

example : Respects toy := by
  intro b z w h hz
  rw [(anyNe_exact toy toy_exact z w h).1 hz]

example : ∀ op ∈ ([.lnprob 0, .nll 0, .both 1, .lnprobGrad 0] : List (Op Int Int)),
    Asks toy 2 toyHeap true op := by
  intro op hop
  simp only [List.mem_cons, List.not_mem_nil, or_false] at hop
  rcases hop with rfl | rfl | rfl | rfl
  · exact ⟨0, rfl, rfl, rfl, _, rfl⟩
  · exact ⟨0, rfl, rfl, rfl, _, rfl⟩
  · exact ⟨1, rfl, rfl, rfl, _, rfl⟩
  · exact ⟨0, rfl, rfl, rfl, _, rfl⟩

example : changes toy none ([[1, 2], [1, 2], [3, 4], [1, 2]] : List (List Int)) = 3 := rfl

example : Careful toy 2 toyHeap [] false
    [.lnprob 0, .write 1 [7, 8], .lnprob 1, .nll 0, .smash [0, 0], .both 0] := by
  simp only [Careful]; decide

/-- C27 is false of the code: after the caller moves its array in place, the old value is
returned. -/
theorem C27_refuted :
    (run toy (init toyHeap false) [.lnprob 0, .write 0 [5, 5], .lnprob 0]).2 =
      [.val (-5), .unit, .val (-5)] ∧
    plainRun toy toyHeap false [.lnprob 0, .write 0 [5, 5], .lnprob 0] =
      [.val (-5), .unit, .val (-50)] := ⟨rfl, rfl⟩

/-- C27 is also false for the gradient array handed out: writing into it changes later answers.
-/
theorem C27_refuted_gradient :
    (run toy (init toyHeap false) [.lnprobGrad 0, .smash [0, 0], .both 0]).2 =
      [.vec [-2, -4], .unit, .pair (-5) [0, 0]] ∧
    plainAnswer toy toyHeap false (.both 0) = .pair (-5) [-2, -4] := ⟨rfl, rfl⟩

/-- C69 is false of the code: at the point queried last the old mode's value is returned. -/
theorem C69_refuted :
    (run toy (init toyHeap false) [.nll 0, .setSampling true, .lnprob 0]).2 =
      [.pair 5 [2, 4], .unit, .val (-5)] ∧
    plainAnswer toy toyHeap true (.lnprob 0) = .val 995 := ⟨rfl, rfl⟩

/-- The sentinel condition of C26 is needed: a first query at the vector of all -99 raises. -/
theorem C26_sentinel (e : Env K R) (heap : Nat → List K) (b : Bool) (op : Op K R) (a : Nat)
    (ha : op.asked = some a) (h : ∀ x ∈ heap a, e.ne x e.sentinel = false) :
    (run e (init heap b) [op]).2 = [.attributeError] := by
  have hst : stale e (init heap b : State K R) a = false := by
    simp only [stale, init, anyNeSentinel, List.any_eq_false]
    intro x hx; simp [h x hx]
  have : ∀ use keep, (query e (init heap b : State K R) a use keep).2 = .attributeError := by
    intro use keep
    unfold query refresh
    rw [hst]
    rfl
  cases op <;> cases ha <;> simp only [run, step] <;> exact congrArg (fun x => [x]) (this _ _)

end Forcepho.Posterior

namespace Forcepho.Posterior.Stack

variable {R : Type} [AddCommMonoid R]

theorem loop_flux (nb : Nat) : ∀ (ds : List (Derivs R)) (b0 : Nat) (g : Nat → Nat → R) (s j : Nat),
    b0 + ds.length ≤ nb → j < nb →
    loop nb ds b0 g s j = g s j + (if b0 ≤ j then (ds[j - b0]?.map fun d => d s 0).getD 0 else 0) := by
  intro ds
  induction ds with
  | nil => intro b0 g s j _ _; simp [loop]
  | cons d ds ih =>
    intro b0 g s j hb hj
    simp only [List.length_cons] at hb
    rw [loop, ih (b0 + 1) _ s j (by omega) hj]
    have hadd : addBand nb g b0 d s j = if j = b0 then g s j + d s 0 else g s j := by
      simp only [addBand]
      rw [if_neg (Nat.not_le.2 hj)]
    rw [hadd]
    by_cases h1 : j = b0
    · subst h1
      simp
    · rw [if_neg h1]
      by_cases h2 : b0 ≤ j
      · rw [if_pos h2, if_pos (by omega)]
        have : j - b0 = (j - (b0 + 1)) + 1 := by omega
        rw [this, List.getElem?_cons_succ]
      · rw [if_neg h2, if_neg (by omega)]

theorem loop_shape (nb : Nat) : ∀ (ds : List (Derivs R)) (b0 : Nat) (g : Nat → Nat → R) (s j : Nat),
    b0 + ds.length ≤ nb → nb ≤ j →
    loop nb ds b0 g s j = g s j + (ds.map fun d => d s (j - nb + 1)).sum := by
  intro ds
  induction ds with
  | nil => intro b0 g s j _ _; simp [loop]
  | cons d ds ih =>
    intro b0 g s j hb hj
    simp only [List.length_cons] at hb
    rw [loop, ih (b0 + 1) _ s j (by omega) hj]
    have hadd : addBand nb g b0 d s j = g s j + d s (j - nb + 1) := by
      simp only [addBand]
      rw [if_neg (by omega), if_pos hj]
    rw [hadd, List.map_cons, List.sum_cons, add_assoc]

theorem getElem?_flatMap_range {A : Type} (f : Nat → Nat → A) (m : Nat) : ∀ (n s j : Nat),
    s < n → j < m →
    ((List.range n).flatMap fun s => (List.range m).map fun j => f s j)[s * m + j]? =
      some (f s j) := by
  intro n
  induction n with
  | zero => intro s j h; omega
  | succ n ih =>
    intro s j hs hj
    rw [List.range_succ, List.flatMap_append]
    have hlen : ((List.range n).flatMap fun s => (List.range m).map fun j => f s j).length = n * m := by
      simp [List.length_flatMap]
    by_cases h : s < n
    · rw [List.getElem?_append_left]
      · exact ih s j h hj
      · rw [hlen]
        calc s * m + j < s * m + m := by omega
          _ = (s + 1) * m := by ring
          _ ≤ n * m := Nat.mul_le_mul_right _ h
    · have : s = n := by omega
      subst this
      rw [List.getElem?_append_right (by rw [hlen]; omega), hlen]
      simp [hj]

/-- C28: the stacked gradient has one block of `bands + 6` entries per source; in the block of a
source, entry `b` is that source's flux derivative from the kernel output of band `b`, and entry
`bands + k` is the sum over the bands of derivative number `k + 1`. -/
theorem C28_layout (nsrc nb : Nat) (derivs : List (Derivs R)) (hd : derivs.length = nb) :
    (stackGrad nsrc nb derivs).length = nsrc * (nb + 6) ∧
    (∀ s b (d : Derivs R), s < nsrc → derivs[b]? = some d →
      (stackGrad nsrc nb derivs)[s * (nb + 6) + b]? = some (d s 0)) ∧
    (∀ s k, s < nsrc → k < 6 →
      (stackGrad nsrc nb derivs)[s * (nb + 6) + (nb + k)]? =
        some ((derivs.map fun d => d s (k + 1)).sum)) := by
  refine ⟨?_, ?_, ?_⟩
  · simp [stackGrad, List.length_flatMap, nparams]
  · intro s b d hs hb
    have hlt : b < nb := by rw [← hd]; exact (List.getElem?_eq_some_iff.1 hb).1
    have := getElem?_flatMap_range (loop nb derivs 0 fun _ _ => (0 : R)) (nb + 6) nsrc s b hs
      (by omega)
    unfold stackGrad
    simp only [nparams]
    rw [this, loop_flux nb derivs 0 _ s b (by omega) hlt]
    simp [hb]
  · intro s k hs hk
    have := getElem?_flatMap_range (loop nb derivs 0 fun _ _ => (0 : R)) (nb + 6) nsrc s (nb + k) hs
      (by omega)
    unfold stackGrad
    simp only [nparams]
    rw [this, loop_shape nb derivs 0 _ s (nb + k) (by omega) (by omega)]
    simp

end Forcepho.Posterior.Stack

namespace Forcepho.Posterior.Stack
open Forcepho.Sources

/-- The parameter meant by each kernel derivative after the flux
(src/compute_gaussians_kernel.cc, `ComputeGaussianDerivative`; common_kernel.cc `Source`). -/
def kernelOrder : List Attr := [.ra, .dec, .q, .pa, .sersic, .rhalf]

/-- C28: for scenes of galaxies with free profile, all with `nb` bands, that order is the order of
the scene's parameter vector, which has the same length. -/
theorem C28_matches_scene {K : Type} (nb : Nat) (sc : Scene K) (hne : sc ≠ [])
    (h : ∀ s ∈ sc, s.WF ∧ s.cls = .galaxy true ∧ s.nBands = nb ∧ s.fixed = false) :
    ∃ theta, getAll sc true = .ok theta ∧ theta.length = sc.length * (nb + 6) ∧
    ∀ (i : Nat) (s : Source K), sc[i]? = some s →
      (∀ b, b < nb → theta[i * (nb + 6) + b]? = s.flux[b]?) ∧
      (∀ (k : Nat) (a : Attr), kernelOrder[k]? = some a →
        theta[i * (nb + 6) + (nb + k)]? = some (s.attr a)) := by
  have hact : activeSources sc = sc := by
    unfold activeSources
    rw [List.filter_eq_self]
    intro s hs; simp [(h s hs).2.2.2]
  have hblk : ∀ s ∈ sc, (s.flux ++ (vecAttrs s.cls).map s.attr) =
      s.flux ++ kernelOrder.map s.attr := by
    intro s hs
    rw [(h s hs).2.1]; rfl
  have hlen : ∀ s ∈ sc, (s.flux ++ (vecAttrs s.cls).map s.attr).length = nb + 6 := by
    intro s hs
    rw [hblk s hs, List.length_append, List.length_map]
    have h1 := (h s hs).1
    have h2 := (h s hs).2.2.1
    unfold Source.WF at h1
    unfold Source.nBands at h2
    simp [kernelOrder]; omega
  have hsum : ∀ l : List (Source K), (∀ s ∈ l, s ∈ sc) →
      ((l.map fun s => s.flux ++ (vecAttrs s.cls).map s.attr).map List.length).sum =
        l.length * (nb + 6) := by
    intro l
    induction l with
    | nil => intro _; simp
    | cons x t ih =>
      intro hl
      rw [List.map_cons, List.map_cons, List.sum_cons, ih (fun s hs => hl s (by simp [hs])),
        hlen x (hl x (by simp)), List.length_cons]
      ring
  refine ⟨(sc.map fun s => s.flux ++ (vecAttrs s.cls).map s.attr).flatten, ?_, ?_, ?_⟩
  · unfold getAll
    simp only [if_true, hact, readAll_ok]
    cases sc with
    | nil => exact absurd rfl hne
    | cons x t => rfl
  · rw [List.length_flatten, hsum sc (fun _ h => h)]
  · intro i s hi
    have hm := List.mem_of_getElem? hi
    have hfl : s.flux.length = nb := by
      have h1 := (h s hm).1
      have h2 := (h s hm).2.2.1
      unfold Source.WF at h1
      unfold Source.nBands at h2
      omega
    have hget : ∀ k, k < nb + 6 →
        (sc.map fun s => s.flux ++ (vecAttrs s.cls).map s.attr).flatten[i * (nb + 6) + k]? =
          (s.flux ++ kernelOrder.map s.attr)[k]? := by
      intro k hk
      have := getElem?_flatten_block (sc.map fun s => s.flux ++ (vecAttrs s.cls).map s.attr) i k _
        (by rw [List.getElem?_map, hi]; rfl) (by rw [hlen s hm]; exact hk)
      rw [← List.map_take, hsum _ (fun x hx => List.mem_of_mem_take hx), List.length_take] at this
      have hil : i < sc.length := (List.getElem?_eq_some_iff.1 hi).1
      rw [Nat.min_eq_left (by omega)] at this
      rw [this]
      exact congrArg (fun l : List K => l[k]?) (hblk s hm)
    constructor
    · intro b hb
      rw [hget b (by omega), List.getElem?_append_left (by omega)]
    · intro k a hk
      have hk6 : k < 6 := (List.getElem?_eq_some_iff.1 hk).1
      rw [hget (nb + k) (by omega), List.getElem?_append_right (by omega), hfl]
      simp [hk]

example : ∀ s ∈ ([gal true false [1, 2], gal true false [3, 4]] : Scene Int),
    s.WF ∧ s.cls = .galaxy true ∧ s.nBands = 2 ∧ s.fixed = false := by
  intro s hs
  simp only [List.mem_cons, List.not_mem_nil, or_false] at hs
  rcases hs with rfl | rfl <;> exact ⟨rfl, rfl, rfl, rfl⟩

example : stackGrad 2 2 [fun s j => (100 * (s + 1) + j : Int), fun s j => 1000 * (s + 1) + j] =
    [100, 1000, 1102, 1104, 1106, 1108, 1110, 1112,
     200, 2000, 2202, 2204, 2206, 2208, 2210, 2212] := by decide +kernel

/-- C28 fails for galaxies whose profile is not free: the gradient has two entries per source
more than the parameter vector. -/
theorem C28_refuted_fixed_profile (derivs : List (Derivs Int)) :
    ∃ theta, getAll [gal false false [1, 2]] true = .ok theta ∧
      (stackGrad 1 2 derivs).length = theta.length + 2 := by
  refine ⟨_, rfl, ?_⟩
  simp [stackGrad, List.length_flatMap, nparams]
  rfl

end Forcepho.Posterior.Stack
