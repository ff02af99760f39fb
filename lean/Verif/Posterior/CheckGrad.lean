import Verif.Posterior.Props
import Mathlib.Analysis.Calculus.Deriv.Slope
import Mathlib.Analysis.Calculus.Deriv.Add
import Mathlib.Analysis.Calculus.Deriv.Comp
import Mathlib.Tactic.Ring
import Mathlib.Tactic.FieldSimp
import Mathlib.Tactic.NormNum

/-!
# C110: comparing numerical and analytic gradients

Model of `Posterior.check_grad` (forcepho/model.py:225-257) on the caching object of
`Verif.Posterior.Model`.  Each `theta.copy()` is an array of its own, at addresses the caller does not use.
-/

set_option autoImplicit false
set_option linter.unusedSectionVars false

namespace Forcepho.Posterior

section Model

variable {K : Type} [Field K]

/-- The argument `delta`: a number or an array. -/
inductive Delta (K : Type) where
  | scalar (d : K)
  | array (ds : List K)

/-- `np.zeros_like(dlnp) + delta` for `n` gradients (model.py:248); `none`: the shapes do not fit. -/
def Delta.steps (n : Nat) : Delta K → Option (List K)
  | .scalar d => some (List.replicate n d)
  | .array ds => if ds.length = n then some ds
                 else if ds.length = 1 then some (List.replicate n (ds.headD 0)) else none

/-- `self.lnprob(theta.copy())` (model.py:253, 255): the copy is written to the array `free`. -/
def probe (e : Env K K) (s : State K K) (free : Nat) (v : List K) : State K K × Ans K :=
  step e (step e s (.write free v)).1 (.lnprob free)

/-- `theta[i] += x`. -/
def shift (v : List K) (i : Nat) (x : K) : List K := v.set i (v.getD i 0 + x)

/-- The difference quotient from the two answers (model.py:256); `none`: one of the calls raised. -/
def quotient (lo hi : Ans K) (dp : K) : Option K :=
  match lo, hi with
  | .val a, .val b => some ((b - a) / (2 * dp))
  | _, _ => none

/-- The loop over parameters (model.py:250-256). -/
def numLoop (e : Env K K) (z0 : List K) : List K → Nat → Nat → State K K → State K K × Option (List K)
  | [], _, _, s => (s, some [])
  | dp :: ds, i, free, s =>
    let theta := shift z0 i (-dp)
    let lo := probe e s free theta
    let hi := probe e lo.1 (free + 1) (shift theta i (2 * dp))
    match quotient lo.2 hi.2 dp with
    | none => (hi.1, none)
    | some x =>
      let rest := numLoop e z0 ds (i + 1) (free + 2) hi.1
      (rest.1, rest.2.map (x :: ·))

/-- `check_grad` (model.py:225-257) on the array at address `a`: the analytic and the numerical gradients. -/
def checkGrad (e : Env K K) (s : State K K) (a free : Nat) (delta : Delta K) :
    State K K × Option (List K × List K) :=
  let z0 := s.heap a
  let r := step e s (.lnprobGrad a)
  match r.2 with
  | .vec g =>
    match delta.steps g.length with
    | none => (r.1, none)
    | some ds =>
      let out := numLoop e z0 ds 0 free r.1
      (out.1, out.2.map fun num => (g, num))
  | _ => (r.1, none)

end Model

/-! ## Proofs -/

section Values

variable {K : Type} [Field K]

/-- A query on a fresh state that holds values: the initial value of `_z` plays no role. -/
theorem query_fresh_some (e : Env K K) (hF : Respects e) (n : Nat) (s : State K K) (used : List Nat)
    (hf : Fresh e n s used) (hz : s.zref ≠ none) (a : Nat) (hl : (s.heap a).length = n)
    (use : K → List K → Ans K) (keep : Bool) :
    (query e s a use keep).2 = withValue (e.F s.sampling (s.heap a)) use ∧
    Fresh e n (query e s a use keep).1 (a :: used) ∧ (query e s a use keep).1.zref ≠ none ∧
    (query e s a use keep).1.heap = s.heap ∧ (query e s a use keep).1.sampling = s.sampling := by
  obtain ⟨b, hb⟩ : ∃ b, s.zref = some b := by
    cases h : s.zref with
    | none => exact absurd h hz
    | some b => exact ⟨b, rfl⟩
  have hst' : stale e s a = anyNe e (s.heap a) (s.heap b) := by unfold stale; rw [hb]
  have hf' := hf
  unfold Fresh at hf'
  rw [hb] at hf'
  obtain ⟨hbu, hbl, l, g, h1, h2, h3⟩ := hf'
  cases hst : stale e s a with
  | true =>
    unfold query refresh evaluate
    rw [if_pos hst]
    cases hv : e.F s.sampling (s.heap a) with
    | none =>
      refine ⟨rfl, ?_, hz, rfl, rfl⟩
      unfold Fresh
      simp only [hb]
      exact ⟨List.mem_cons_of_mem _ hbu, hbl, l, g, h1, h2, h3⟩
    | some r =>
      obtain ⟨l, g⟩ := r
      exact ⟨rfl, ⟨by simp, hl, l, g, rfl, rfl, hv⟩, by simp [readCache], rfl, rfl⟩
  | false =>
    have heq := hF s.sampling (s.heap a) (s.heap b) (hl.trans hbl.symm) (hst' ▸ hst)
    have hq : query e s a use keep = ({ s with held := s.held || keep }, use l g) := by
      unfold query refresh
      rw [hst]
      simp [readCache, h1, h2]
    rw [hq, heq, h3]
    refine ⟨rfl, ?_, hz, rfl, rfl⟩
    unfold Fresh
    simp only [hb]
    exact ⟨List.mem_cons_of_mem _ hbu, hbl, l, g, h1, h2, h3⟩

/-- One probe. -/
theorem probe_spec (e : Env K K) (hF : Respects e) (n : Nat) (s : State K K) (used : List Nat)
    (hf : Fresh e n s used) (hz : s.zref ≠ none) (free : Nat) (hfree : free ∉ used) (v : List K)
    (hl : v.length = n) (x : K) (g : List K) (hv : e.F s.sampling v = some (x, g)) :
    (probe e s free v).2 = .val x ∧ Fresh e n (probe e s free v).1 (free :: used) ∧
    (probe e s free v).1.zref ≠ none ∧
    (probe e s free v).1.heap = Function.update s.heap free v ∧
    (probe e s free v).1.sampling = s.sampling := by
  have hf' : Fresh e n { s with heap := Function.update s.heap free v } used := by
    unfold Fresh at hf ⊢
    simp only
    cases hz : s.zref with
    | none => trivial
    | some b =>
      rw [hz] at hf
      obtain ⟨hb, hr⟩ := hf
      have hne : b ≠ free := fun h => hfree (h ▸ hb)
      refine ⟨hb, ?_⟩
      simp only [Function.update_of_ne hne]
      exact hr
  obtain ⟨q1, q2, q3, q4, q5⟩ := query_fresh_some e hF n { s with heap := Function.update s.heap free v } used hf' hz
    free (by simp [hl]) (fun l _ => .val l) false
  simp only [Function.update_self, hv, withValue] at q1
  exact ⟨q1, q2, q3, q4, q5⟩

/-- The vector with its `i`-th entry replaced by that entry plus `x`. -/
def Moved (z : List K) (i : Nat) (x : K) (v : List K) : Prop :=
  v.length = z.length ∧ ∀ (j : Nat) (y : K), z[j]? = some y → v[j]? = some (if j = i then y + x else y)

theorem shift_moved (z : List K) (i : Nat) (x : K) : Moved z i x (shift z i x) := by
  refine ⟨by simp [shift], ?_⟩
  intro j y h
  by_cases hij : j = i
  · subst hij
    have hj : j < z.length := by rw [List.getElem?_eq_some_iff] at h; exact h.1
    simp [shift, List.getElem?_set_self hj, h]
  · rw [shift, List.getElem?_set_ne (fun h => hij h.symm), if_neg hij, h]

theorem shift_shift (z : List K) (i : Nat) (x y : K) : shift (shift z i x) i y = shift z i (x + y) := by
  unfold shift
  by_cases h : i < z.length
  · rw [List.set_set]
    congr 1
    simp [h, add_assoc]
  · have h' : z.length ≤ i := Nat.le_of_not_lt h
    rw [List.set_eq_of_length_le h', List.set_eq_of_length_le h', List.set_eq_of_length_le h']

theorem shift_length (z : List K) (i : Nat) (x : K) : (shift z i x).length = z.length := by simp [shift]

theorem numLoop_spec (e : Env K K) (hF : Respects e) (n : Nat) (f : List K → K) (g : List K → List K)
    (b : Bool) (hf : ∀ v : List K, v.length = n → e.F b v = some (f v, g v))
    (z0 : List K) (hz0 : z0.length = n) :
    ∀ (ds : List K) (i free : Nat) (s : State K K) (used : List Nat), Fresh e n s used →
    s.zref ≠ none → s.sampling = b → (∀ a ∈ used, a < free) →
    (numLoop e z0 ds i free s).2 = some (ds.mapIdx fun j d =>
      (f (shift z0 (i + j) d) - f (shift z0 (i + j) (-d))) / (2 * d)) ∧
    (∀ a < free, (numLoop e z0 ds i free s).1.heap a = s.heap a) := by
  intro ds
  induction ds with
  | nil => intro i free s used _ _ _ _; exact ⟨rfl, fun _ _ => rfl⟩
  | cons d ds ih =>
    intro i free s used hs hz hb hu
    obtain ⟨a1, a2, a3, a4, a5⟩ := probe_spec e hF n s used hs hz free (fun h => Nat.lt_irrefl _ (hu _ h))
      (shift z0 i (-d)) (by rw [shift_length, hz0]) _ _ (by rw [hb]; exact hf _ (by rw [shift_length, hz0]))
    have h2 : shift (shift z0 i (-d)) i (2 * d) = shift z0 i d := by
      rw [shift_shift]; congr 1; ring
    obtain ⟨b1, b2, b3, b4, b5⟩ := probe_spec e hF n (probe e s free (shift z0 i (-d))).1 (free :: used) a2 a3 (free + 1)
      (by
        intro h
        rcases List.mem_cons.mp h with h | h
        · omega
        · have := hu _ h; omega)
      (shift z0 i d) (by rw [shift_length, hz0]) _ _ (by rw [a5, hb]; exact hf _ (by rw [shift_length, hz0]))
    obtain ⟨c1, c2⟩ := ih (i + 1) (free + 2) (probe e (probe e s free (shift z0 i (-d))).1 (free + 1) (shift z0 i d)).1
      ((free + 1) :: free :: used) b2 b3 (by rw [b5, a5, hb])
      (by
        intro a ha
        rcases List.mem_cons.mp ha with h | ha
        · omega
        rcases List.mem_cons.mp ha with h | ha
        · omega
        have := hu _ ha; omega)
    have hstep : numLoop e z0 (d :: ds) i free s =
        ((numLoop e z0 ds (i + 1) (free + 2) (probe e (probe e s free (shift z0 i (-d))).1 (free + 1) (shift z0 i d)).1).1,
         ((numLoop e z0 ds (i + 1) (free + 2) (probe e (probe e s free (shift z0 i (-d))).1 (free + 1) (shift z0 i d)).1).2.map
          (((f (shift z0 i d) - f (shift z0 i (-d))) / (2 * d)) :: ·))) := by
      rw [numLoop]
      simp only [h2, a1, b1, quotient]
    rw [hstep]
    constructor
    · rw [c1]
      simp only [Option.map_some, List.mapIdx_cons, Nat.add_zero]
      congr 2
      congr 1
      funext j d'
      rw [Nat.add_assoc, Nat.add_comm 1 j]
    · intro a ha
      rw [c2 a (by omega), b4, a4, Function.update_of_ne (by omega), Function.update_of_ne (by omega)]

/-- C110. On an object that has been used in any careful way (its cache is fresh) `check_grad` returns the
analytic gradient at `z` and, for each parameter, the difference of the log-probabilities at `z` with this
parameter raised and lowered by its own step and all others as they were, over twice the step.  The
caller's arrays, `z` among them, are as before. -/
theorem C110_values (e : Env K K) (hF : Respects e) (n : Nat) (f : List K → K) (g : List K → List K)
    (s : State K K) (hf : ∀ v : List K, v.length = n → e.F s.sampling v = some (f v, g v))
    (hg : ∀ v : List K, v.length = n → (g v).length = n)
    (used : List Nat) (hs : Fresh e n s used) (a free : Nat) (hu : ∀ b ∈ used, b < free) (ha : a < free)
    (hl : (s.heap a).length = n) (hz : s.zref ≠ none ∨ anyNeSentinel e (s.heap a) = true)
    (delta : Delta K) (ds : List K)
    (hd : delta = .array ds ∧ ds.length = n ∨ ∃ d : K, (delta = .scalar d ∨ delta = .array [d]) ∧
      ds = List.replicate n d) :
    ∃ num : List K, (checkGrad e s a free delta).2 = some (g (s.heap a), num) ∧ num.length = n ∧
      (∀ (i : Nat) (d : K) (up down : List K), ds[i]? = some d → Moved (s.heap a) i d up →
        Moved (s.heap a) i (-d) down → num[i]? = some ((f up - f down) / (2 * d))) ∧
      (∀ b < free, (checkGrad e s a free delta).1.heap b = s.heap b) := by
  have hdl : ds.length = n := by
    rcases hd with h | ⟨d, _, h⟩
    · exact h.2
    · rw [h]; simp
  have hsteps : delta.steps n = some ds := by
    rcases hd with ⟨h, h'⟩ | ⟨d, h | h, h'⟩
    · rw [h, Delta.steps, if_pos h']
    · rw [h, Delta.steps, h']
    · rw [h, Delta.steps]
      by_cases h1 : [d].length = n
      · rw [if_pos h1, h', ← h1]; rfl
      · rw [if_neg h1, if_pos (by rfl : [d].length = 1), h']; rfl
  have huniq : ∀ (z : List K) (i : Nat) (x : K) (v w : List K), Moved z i x v → Moved z i x w → v = w := by
    intro z i x v w h1 h2
    apply List.ext_getElem?
    intro j
    by_cases hj : j < z.length
    · have hy : z[j]? = some z[j] := List.getElem?_eq_getElem hj
      rw [h1.2 j _ hy, h2.2 j _ hy]
    · rw [List.getElem?_eq_none (by rw [h1.1]; omega), List.getElem?_eq_none (by rw [h2.1]; omega)]
  have hstep : ∃ s' : State K K, step e s (.lnprobGrad a) = (s', .vec (g (s.heap a))) ∧ Fresh e n s' (a :: used) ∧
      s'.zref ≠ none ∧ s'.heap = s.heap ∧ s'.sampling = s.sampling := by
    by_cases h0 : s.zref = none
    · have hsent : anyNeSentinel e (s.heap a) = true := by
        rcases hz with h | h
        · exact absurd h0 h
        · exact h
      obtain ⟨q1, q2, q3, q4⟩ := query_fresh e hF n s used hs a hl hsent (fun _ g => .vec g) true
      rw [hf _ hl] at q1
      refine ⟨_, Prod.ext rfl q1, q2, ?_, q3, q4⟩
      have hst : stale e s a = true := by unfold stale; rw [h0]; exact hsent
      simp [query, refresh, hst, evaluate, hf _ hl, readCache, step]
    · obtain ⟨q1, q2, q3, q4, q5⟩ := query_fresh_some e hF n s used hs h0 a hl (fun _ g => .vec g) true
      rw [hf _ hl] at q1
      exact ⟨_, Prod.ext rfl q1, q2, q3, q4, q5⟩
  obtain ⟨s', e1, e2, e3, e4, e5⟩ := hstep
  obtain ⟨n1, n2⟩ := numLoop_spec e hF n f g s.sampling hf (s.heap a) hl ds 0 free s' (a :: used) e2 e3 e5
    (by
      intro b hb
      rcases List.mem_cons.mp hb with h | h
      · omega
      · exact hu _ h)
  have hc : checkGrad e s a free delta = ((numLoop e (s.heap a) ds 0 free s').1,
      (numLoop e (s.heap a) ds 0 free s').2.map fun num => (g (s.heap a), num)) := by
    unfold checkGrad
    simp only [e1, hg _ hl, hsteps]
  refine ⟨_, by rw [hc, n1]; rfl, by simp [hdl], ?_, ?_⟩
  · intro i d up down hi hup hdown
    have hi' : i < ds.length := by rw [List.getElem?_eq_some_iff] at hi; exact hi.1
    rw [huniq _ _ _ _ _ hup (shift_moved _ _ _), huniq _ _ _ _ _ hdown (shift_moved _ _ _)]
    rw [List.getElem?_mapIdx, hi]
    simp
  · intro b hb
    rw [hc]
    rw [n2 b hb, e4]

/-- C110. Along a parameter in which the log-probability is quadratic (a flux, without transform) the
numerical gradient is the derivative, for any step but zero. -/
theorem C110_quadratic [NeZero (2 : K)] (f : List K → K) (z : List K) (i : Nat) (x c0 c1 c2 d : K) (hd : d ≠ 0)
    (hx : z[i]? = some x) (hq : ∀ t : K, f (z.set i t) = c0 + c1 * t + c2 * t ^ 2)
    (up down : List K) (hup : Moved z i d up) (hdown : Moved z i (-d) down) :
    (f up - f down) / (2 * d) = c1 + 2 * c2 * x := by
  have hset : ∀ (y : K) (v : List K), Moved z i y v → v = z.set i (x + y) := by
    intro y v h
    have hi : i < z.length := by rw [List.getElem?_eq_some_iff] at hx; exact hx.1
    apply List.ext_getElem?
    intro j
    by_cases hj : j < z.length
    · rw [h.2 j _ (List.getElem?_eq_getElem hj)]
      by_cases hij : j = i
      · subst hij
        rw [List.getElem?_set_self hj, if_pos rfl]
        rw [List.getElem?_eq_getElem hj] at hx
        injection hx with hx; rw [hx]
      · rw [List.getElem?_set_ne (fun h => hij h.symm), if_neg hij, List.getElem?_eq_getElem hj]
    · rw [List.getElem?_eq_none (by rw [h.1]; omega), List.getElem?_eq_none (by simp; omega)]
  rw [hset _ _ hup, hset _ _ hdown, hq, hq, div_eq_iff (mul_ne_zero (NeZero.ne 2) hd)]
  ring

/-- A log-probability that is quadratic in two parameters, on rational numbers. -/
def exQuad : Env Rat Rat where
  ne x y := decide (x ≠ y)
  sentinel := -99
  F _ v := some (-(v.getD 0 0 ^ 2 + 3 * v.getD 1 0), [-2 * v.getD 0 0, -3])
  ndof := 1

/-- A new object meets the hypotheses of `C110_values`; steps of one half and two. -/
example : (checkGrad exQuad (init (fun _ => [1, 5]) true) 0 1 (.array [1 / 2, 2])).2 =
    some ([-2, -3], [-2, -3]) := by decide +kernel

example : Fresh exQuad 2 (init (fun _ => [1, 5]) true) [] ∧
    anyNeSentinel exQuad ((init (fun _ => [1, 5]) true : State Rat Rat).heap 0) = true := by
  exact ⟨trivial, by decide +kernel⟩

end Values

section Limit

open Filter Topology

/-- A symmetric difference quotient tends to the derivative. -/
theorem symm_quotient (f : ℝ → ℝ) (f' x : ℝ) (h : HasDerivAt f f' x) :
    Tendsto (fun d => (f (x + d) - f (x + -d)) / (2 * d)) (𝓝[≠] 0) (𝓝 f') := by
  have h0 : HasDerivAt (fun d => f (x + d) - f (x + -d)) (2 * f') 0 := by
    have h1 : HasDerivAt (fun d : ℝ => f (x + d)) f' 0 := by
      have h' : HasDerivAt f f' (x + 0) := by rw [add_zero]; exact h
      have := h'.comp (0 : ℝ) ((hasDerivAt_id (0 : ℝ)).const_add x)
      simpa [Function.comp_def] using this
    have h2 : HasDerivAt (fun d : ℝ => f (x + -d)) (-f') 0 := by
      have h' : HasDerivAt f f' (x + -0) := by rw [neg_zero, add_zero]; exact h
      have := h'.comp (0 : ℝ) ((hasDerivAt_neg (0 : ℝ)).const_add x)
      simpa [Function.comp_def] using this
    have := h1.sub h2
    have e : 2 * f' = f' - -f' := by ring
    rw [e]
    exact this
  have h3 := h0.tendsto_slope_zero
  have h4 := h3.const_mul (1 / 2)
  have e : 1 / 2 * (2 * f') = f' := by ring
  rw [e] at h4
  refine h4.congr' ?_
  filter_upwards [self_mem_nhdsWithin] with d hd
  have hd' : d ≠ 0 := hd
  simp only [zero_add, add_zero, neg_zero, sub_self, sub_zero, smul_eq_mul]
  field_simp

/-- C110. If the gradient is the derivative of the log-probability in every parameter, the numerical
gradients that `check_grad` returns tend to the analytic ones it returns as the step goes to zero. -/
theorem C110_limit (e : Env ℝ ℝ) (hF : Respects e) (n : Nat) (f : List ℝ → ℝ) (g : List ℝ → List ℝ)
    (s : State ℝ ℝ) (hf : ∀ v : List ℝ, v.length = n → e.F s.sampling v = some (f v, g v))
    (hg : ∀ v : List ℝ, v.length = n → (g v).length = n)
    (used : List Nat) (hs : Fresh e n s used) (a free : Nat) (hu : ∀ b ∈ used, b < free) (ha : a < free)
    (hl : (s.heap a).length = n) (hz : s.zref ≠ none ∨ anyNeSentinel e (s.heap a) = true)
    (hderiv : ∀ (i : Nat) (x dx : ℝ), (s.heap a)[i]? = some x → (g (s.heap a))[i]? = some dx →
      HasDerivAt (fun t => f ((s.heap a).set i t)) dx x)
    (i : Nat) (dx : ℝ) (hi : (g (s.heap a))[i]? = some dx) :
    ∃ q : ℝ → ℝ, (∀ d : ℝ, ∃ num : List ℝ,
        (checkGrad e s a free (.scalar d)).2 = some (g (s.heap a), num) ∧ num[i]? = some (q d)) ∧
      Tendsto q (𝓝[≠] 0) (𝓝 dx) := by
  have hin : i < n := by
    rw [List.getElem?_eq_some_iff] at hi
    have := hi.1
    rwa [hg _ hl] at this
  have hx : (s.heap a)[i]? = some (s.heap a)[i] := List.getElem?_eq_getElem (by omega)
  have hD := hderiv i _ dx hx hi
  refine ⟨_, ?_, symm_quotient _ _ _ hD⟩
  intro d
  obtain ⟨num, h1, _, h3, _⟩ := C110_values e hF n f g s hf hg used hs a free hu ha hl hz (.scalar d)
    (List.replicate n d) (Or.inr ⟨d, Or.inl rfl, rfl⟩)
  refine ⟨num, h1, ?_⟩
  have hgetD : (s.heap a).getD i 0 = (s.heap a)[i]'(by omega) := by
    rw [List.getD_eq_getElem?_getD, hx]; rfl
  have := h3 i d _ _ (by simp [hin]) (shift_moved _ _ _) (shift_moved _ _ _)
  rw [this]
  simp only [shift, hgetD]

end Limit

end Forcepho.Posterior
