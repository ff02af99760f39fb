import Verif.Em.Props
import Mathlib.Tactic.FinCases

/-!
# C95 (first pass), C96: the EM fit around the passes

Model of the loop of `fit_mvn_mix` (`forcepho/mixtures/psf_mix_em.py:84-209`) and what its answer
says.  The loop is written over an arbitrary parameter type, pass and likelihood, the last with
`none` for nan, so that the theorems about the loop do not depend on exact arithmetic.
-/

set_option autoImplicit false
set_option linter.unusedSectionVars false

namespace Forcepho.Em

open Finset Classical

noncomputable section

variable {nx ny K : ℕ}

/-! ## Model of the loop -/

/-- Where the array stored as `fitted_params` lives: `curr_params = all_init` (`psf_mix_em.py:134`)
makes the first current parameters the very array that the next repeat overwrites. -/
inductive Slot (Θ : Type) where
  | shared
  | own (t : Θ)

/-- One entry of `ans_repeat` (`psf_mix_em.py:96-106`, `:183-184`, `:194-195`). -/
structure Answer (Θ : Type) where
  slot : Slot Θ
  /-- the parameters `recon_image` and `error_residual` were computed from -/
  used : Θ
  loopCount : ℕ
  finalLL : Option ℝ

/-- The `while` loop (`psf_mix_em.py:141-203`); `fuel` is what is left of the 20000 passes, `first`
says that the current parameters are still the array `all_init`.  `none`: the loop ran out without
appending an answer. -/
def emLoop {Θ : Type} (step : Θ → Θ) (ll : Θ → Option ℝ) (thresh : ℝ) :
    ℕ → Θ → Option ℝ → ℕ → Bool → Option (Answer Θ)
  | 0, _, _, _, _ => none
  | fuel + 1, cur, curLL, count, first =>
    let new := step cur
    match ll new, curLL with
    | none, _ =>
      some { slot := if first then .shared else .own cur, used := cur, loopCount := count,
             finalLL := none }
    | some v, some c =>
      if |v - c| < thresh then
        some { slot := .own new, used := new, loopCount := count, finalLL := some v }
      else emLoop step ll thresh fuel new (some v) (count + 1) false
    | some v, none => emLoop step ll thresh fuel new (some v) (count + 1) false

/-- One repeat from the starting parameters `init` (`psf_mix_em.py:131-203`). -/
def fitOnce {Θ : Type} (step : Θ → Θ) (ll : Θ → Option ℝ) (thresh : ℝ) (init : Θ) :
    Option (Answer Θ) :=
  emLoop step ll thresh 20000 init (ll init) 0 true

/-- What the caller reads in `fitted_params` after all repeats: the shared array holds the starting
parameters of the last repeat (`psf_mix_em.py:93`, `:113`, `:117`). -/
def readParams {Θ : Type} (inits : List Θ) (a : Answer Θ) : Θ :=
  match a.slot with
  | .shared => inits.getLastD a.used
  | .own t => t

/-- The two optimisers (`psf_mix_em.py:90`). -/
inductive Method where
  | scipyLs
  | em

/-- `fit_mvn_mix(..., returnfull=True)`: the list of answers.  The `scipy_ls` branch calls
`create_ans(res.x)` with one argument where two are required (`psf_mix_em.py:96`, `:130`). -/
def fitFull {Θ : Type} (m : Method) (step : Θ → Θ) (ll : Θ → Option ℝ) (thresh : ℝ)
    (inits : List Θ) : Except String (List (Answer Θ)) :=
  match m with
  | .scipyLs => if inits = [] then .ok [] else .error "TypeError"
  | .em => .ok (inits.filterMap (fitOnce step ll thresh))

/-- The first entry with the smallest residual (`np.argmin`, `psf_mix_em.py:207-209`). -/
def pickBest {Θ : Type} (err : Θ → ℝ) : List (Answer Θ) → Option (Answer Θ)
  | [] => none
  | a :: as =>
    match pickBest err as with
    | none => some a
    | some b => if err a.used ≤ err b.used then some a else some b

/-- `fit_mvn_mix(..., returnfull=False)` (`psf_mix_em.py:206-209`): `argmin` of an empty list
raises. -/
def fitBest {Θ : Type} (m : Method) (step : Θ → Θ) (ll : Θ → Option ℝ) (thresh : ℝ) (err : Θ → ℝ)
    (inits : List Θ) : Except String (Answer Θ) :=
  match fitFull m step ll thresh inits with
  | .error e => .error e
  | .ok as =>
    match pickBest err as with
    | none => .error "ValueError"
    | some a => .ok a

/-! ## C96: what an answer means -/

/-- The specification of stopping: pass number `n` (counting from zero) ends the loop. -/
def Stops {Θ : Type} (step : Θ → Θ) (ll : Θ → Option ℝ) (thresh : ℝ) (init : Θ) (n : ℕ) : Prop :=
  ll (step^[n + 1] init) = none ∨
  ∃ v c, ll (step^[n + 1] init) = some v ∧ ll (step^[n] init) = some c ∧ |v - c| < thresh

/-- The specification of an answer given at pass `n`. -/
def Reports {Θ : Type} (step : Θ → Θ) (ll : Θ → Option ℝ) (thresh : ℝ) (init : Θ) (n : ℕ)
    (a : Answer Θ) : Prop :=
  a.loopCount = n ∧
  ((a.finalLL = none ∧ ll (step^[n + 1] init) = none ∧ a.used = step^[n] init ∧
      a.slot = if n = 0 then .shared else .own (step^[n] init)) ∨
   (∃ v c, a.finalLL = some v ∧ ll (step^[n + 1] init) = some v ∧ ll (step^[n] init) = some c ∧
      |v - c| < thresh ∧ a.used = step^[n + 1] init ∧ a.slot = .own (step^[n + 1] init)))

theorem emLoop_spec {Θ : Type} (step : Θ → Θ) (ll : Θ → Option ℝ) (thresh : ℝ) (init : Θ)
    (fuel count : ℕ) :
    match emLoop step ll thresh fuel (step^[count] init) (ll (step^[count] init)) count
      (count == 0) with
    | none => ∀ n, count ≤ n → n < count + fuel → ¬ Stops step ll thresh init n
    | some a => ∃ n, count ≤ n ∧ n < count + fuel ∧ Reports step ll thresh init n a ∧
        ∀ j, count ≤ j → j < n → ¬ Stops step ll thresh init j := by
  induction fuel generalizing count with
  | zero =>
    simp only [emLoop]
    intro n h1 h2
    omega
  | succ fuel ih =>
    have hs : step (step^[count] init) = step^[count + 1] init :=
      (Function.iterate_succ_apply' step count init).symm
    have carry : ∀ v, ll (step^[count + 1] init) = some v → ¬ Stops step ll thresh init count →
        emLoop step ll thresh (fuel + 1) (step^[count] init) (ll (step^[count] init)) count
          (count == 0)
          = emLoop step ll thresh fuel (step^[count + 1] init) (ll (step^[count + 1] init))
              (count + 1) (count + 1 == 0) →
        match emLoop step ll thresh (fuel + 1) (step^[count] init) (ll (step^[count] init)) count
          (count == 0) with
        | none => ∀ n, count ≤ n → n < count + (fuel + 1) → ¬ Stops step ll thresh init n
        | some a => ∃ n, count ≤ n ∧ n < count + (fuel + 1) ∧ Reports step ll thresh init n a ∧
            ∀ j, count ≤ j → j < n → ¬ Stops step ll thresh init j := by
      intro v hv hns he
      rw [he]
      have h := ih (count + 1)
      split at h
      · intro n h1 h2
        rcases Nat.eq_or_lt_of_le h1 with e | l
        · rw [← e]; exact hns
        · exact h n l (by omega)
      · obtain ⟨n, h1, h2, h3, h4⟩ := h
        refine ⟨n, by omega, by omega, h3, fun j j1 j2 => ?_⟩
        rcases Nat.eq_or_lt_of_le j1 with e | l
        · rw [← e]; exact hns
        · exact h4 j l j2
    cases hn : ll (step^[count + 1] init) with
    | none =>
      have : emLoop step ll thresh (fuel + 1) (step^[count] init) (ll (step^[count] init)) count
          (count == 0) = some ⟨if (count == 0) = true then .shared else .own (step^[count] init),
            step^[count] init, count, none⟩ := by
        simp only [emLoop, hs, hn]
      rw [this]
      refine ⟨count, le_refl _, by omega, ⟨rfl, Or.inl ⟨rfl, hn, rfl, ?_⟩⟩, fun j a b => by omega⟩
      simp
    | some v =>
      cases hc : ll (step^[count] init) with
      | none =>
        rw [← hc]
        apply carry v hn
        · rintro (h | ⟨v', c', h1, h2, _⟩)
          · rw [hn] at h; exact absurd h (by simp)
          · rw [hc] at h2; exact absurd h2 (by simp)
        · simp only [emLoop, hs, hn, hc]
          rfl
      | some c =>
        rw [← hc]
        by_cases hlt : |v - c| < thresh
        · have : emLoop step ll thresh (fuel + 1) (step^[count] init) (ll (step^[count] init)) count
              (count == 0) = some ⟨.own (step^[count + 1] init),
                step^[count + 1] init, count, some v⟩ := by
            simp only [emLoop, hs, hn, hc]
            rw [if_pos hlt]
          rw [this]
          exact ⟨count, le_refl _, by omega, ⟨rfl, Or.inr ⟨v, c, rfl, hn, hc, hlt, rfl, rfl⟩⟩,
            fun j a b => by omega⟩
        · apply carry v hn
          · rintro (h | ⟨v', c', h1, h2, h3⟩)
            · rw [hn] at h; exact absurd h (by simp)
            · rw [hn] at h1; rw [hc] at h2
              cases h1; cases h2
              exact hlt h3
          · simp only [emLoop, hs, hn, hc, if_neg hlt]
            rfl

/-- **C96, an answer.**  A repeat gives an answer exactly when one of its first 20000 passes ends
the loop; the answer describes the first such pass. -/
theorem C96_answer {Θ : Type} (step : Θ → Θ) (ll : Θ → Option ℝ) (thresh : ℝ) (init : Θ)
    (a : Answer Θ) :
    fitOnce step ll thresh init = some a ↔
      ∃ n < 20000, Stops step ll thresh init n ∧ (∀ j < n, ¬ Stops step ll thresh init j) ∧
        Reports step ll thresh init n a := by
  have h := emLoop_spec step ll thresh init 20000 0
  simp only [Function.iterate_zero, id_eq, Nat.zero_le, true_implies, zero_add, true_and,
    beq_self_eq_true] at h
  have stop_of : ∀ n b, Reports step ll thresh init n b → Stops step ll thresh init n := by
    rintro n b ⟨_, h | ⟨v, c, _, h1, h2, h3, _⟩⟩
    · exact Or.inl h.2.1
    · exact Or.inr ⟨v, c, h1, h2, h3⟩
  have uniq : ∀ n b b', Reports step ll thresh init n b → Reports step ll thresh init n b' →
      b = b' := by
    rintro n ⟨s, u, l, f⟩ ⟨s', u', l', f'⟩ ⟨h1, h2⟩ ⟨h1', h2'⟩
    simp only at h1 h1' h2 h2'
    rcases h2 with ⟨a1, a2, a3, a4⟩ | ⟨v, c, a1, a2, a3, a4, a5, a6⟩ <;>
      rcases h2' with ⟨b1, b2, b3, b4⟩ | ⟨v', c', b1, b2, b3, b4, b5, b6⟩
    · rw [h1, h1', a1, b1, a3, b3, a4, b4]
    · rw [a2] at b2; exact absurd b2 (by simp)
    · rw [a2] at b2; exact absurd b2 (by simp)
    · rw [a2] at b2
      cases b2
      rw [h1, h1', a1, b1, a5, b5, a6, b6]
  unfold fitOnce
  constructor
  · intro he
    rw [he] at h
    obtain ⟨n, h1, h2, h3⟩ := h
    exact ⟨n, h1, stop_of n a h2, h3, h2⟩
  · rintro ⟨n, hn, hst, hno, hr⟩
    split at h
    · exact absurd hst (h n hn)
    · rename_i b heq
      obtain ⟨m, h1, h2, h3⟩ := h
      have : m = n := by
        rcases lt_trichotomy m n with l | e | l
        · exact absurd (stop_of m b h2) (hno m l)
        · exact e
        · exact absurd hst (h3 n l)
      rw [heq, uniq n b a (this ▸ h2) hr]

/-- **C96, the reported likelihood.**  When the reported log likelihood is a number it is the one of
the fitted parameters, and the last two passes differ by less than the threshold. -/
theorem C96_converged_partial {Θ : Type} {step : Θ → Θ} {ll : Θ → Option ℝ} {thresh : ℝ} {inits : List Θ}
    {as : List (Answer Θ)} (h : fitFull .em step ll thresh inits = .ok as) {a : Answer Θ}
    (ha : a ∈ as) {v : ℝ} (hv : a.finalLL = some v) :
    ll (readParams inits a) = some v ∧ readParams inits a = a.used ∧
      ∃ init ∈ inits, a.used = step^[a.loopCount + 1] init ∧ a.loopCount < 20000 ∧
        ∃ c, ll (step^[a.loopCount] init) = some c ∧ |v - c| < thresh := by
  simp only [fitFull, Except.ok.injEq] at h
  subst h
  obtain ⟨init, hi, he⟩ := List.mem_filterMap.mp ha
  obtain ⟨n, hn, _, _, hl, hr⟩ := (C96_answer step ll thresh init a).mp he
  rcases hr with ⟨h1, _⟩ | ⟨v', c, h1, h2, h3, h4, h5, h6⟩
  · rw [hv] at h1; exact absurd h1 (by simp)
  · rw [hv] at h1
    cases h1
    have e : readParams inits a = step^[n + 1] init := by rw [readParams, h6]
    rw [hl]
    exact ⟨by rw [e, h2], by rw [e, h5], init, hi, h5, hn, c, h3, h4⟩

/-- The chosen answer has the smallest residual of all answers. -/
theorem C96_best {Θ : Type} {step : Θ → Θ} {ll : Θ → Option ℝ} {thresh : ℝ} {err : Θ → ℝ}
    {m : Method} {inits : List Θ} {a : Answer Θ}
    (h : fitBest m step ll thresh err inits = .ok a) :
    ∃ as, fitFull m step ll thresh inits = .ok as ∧ a ∈ as ∧ ∀ b ∈ as, err a.used ≤ err b.used := by
  have pick : ∀ (l : List (Answer Θ)) (x : Answer Θ), pickBest err l = some x →
      x ∈ l ∧ ∀ b ∈ l, err x.used ≤ err b.used := by
    intro l
    induction l with
    | nil => intro x hx; simp [pickBest] at hx
    | cons y l ih =>
      intro x hx
      cases hp : pickBest err l with
      | none =>
        have hl : l = [] := by
          cases l with
          | nil => rfl
          | cons z l' =>
            simp only [pickBest] at hp
            split at hp
            · exact absurd hp (by simp)
            · split at hp <;> exact absurd hp (by simp)
        rw [pickBest, hp] at hx
        cases hx
        subst hl
        simp
      | some z =>
        have hz := ih z hp
        rw [pickBest, hp] at hx
        dsimp only at hx
        by_cases hle : err y.used ≤ err z.used
        · rw [if_pos hle] at hx
          cases hx
          refine ⟨List.mem_cons_self, fun b hb => ?_⟩
          rcases List.mem_cons.mp hb with rfl | hb
          · exact le_refl _
          · exact le_trans hle (hz.2 b hb)
        · rw [if_neg hle] at hx
          cases hx
          refine ⟨List.mem_cons_of_mem _ hz.1, fun b hb => ?_⟩
          rcases List.mem_cons.mp hb with rfl | hb
          · exact (not_le.mp hle).le
          · exact hz.2 b hb
  unfold fitBest at h
  split at h
  · exact absurd h (by simp)
  · rename_i as heq
    split at h
    · exact absurd h (by simp)
    · rename_i x hx
      cases h
      exact ⟨as, heq, pick as _ hx⟩

/-- **C96 on images.**  With exact arithmetic, a good image and usable starting gaussians: every
answer holds usable gaussians with amplitudes summing to one, and its reported likelihood is that of
its parameters and is at least the likelihood after every earlier pass. -/
theorem C96_em {im : Pix nx ny → ℝ} (hi : GoodImage im) (hK : 0 < K) {thresh : ℝ}
    {inits : List (Fin K → Comp)} (hu : ∀ s ∈ inits, ∀ k, Usable (s k))
    {as : List (Answer (Fin K → Comp))}
    (h : fitFull .em (emStep im) (fun q => some (logLikelihood im q)) thresh inits = .ok as)
    {a : Answer (Fin K → Comp)} (ha : a ∈ as) :
    let q := readParams inits a
    (∀ k, Usable (q k)) ∧ ∑ k, (q k).amp = 1 ∧ a.finalLL = some (likelihoodSpec im q) ∧
    ∃ s ∈ inits, ∀ j, 0 < j → j ≤ a.loopCount + 1 →
      likelihoodSpec im ((emStep im)^[j] s) ≤ likelihoodSpec im q := by
  intro q
  have hf : ∃ v, a.finalLL = some v := by
    have h' := h
    simp only [fitFull, Except.ok.injEq] at h'
    subst h'
    obtain ⟨init, hi', he⟩ := List.mem_filterMap.mp ha
    obtain ⟨n, _, _, _, _, hr⟩ := (C96_answer _ _ thresh init a).mp he
    rcases hr with ⟨_, h2, _⟩ | ⟨v, _, h1, _⟩
    · exact absurd h2 (by simp)
    · exact ⟨v, h1⟩
  obtain ⟨v, hv⟩ := hf
  obtain ⟨h1, h2, s, hs, h3, _, _⟩ := C96_converged_partial h ha hv
  have hq : q = (emStep im)^[a.loopCount + 1] s := by rw [show q = a.used from h2, h3]
  have hit := C94_iterates hi hK (hu s hs) (a.loopCount + 1)
  rw [← hq] at hit
  refine ⟨hit.1, hit.2 (Nat.succ_pos _), ?_, s, hs, fun j hj hjl => ?_⟩
  · have : logLikelihood im q = v := by simpa using h1
    rw [hv, ← this, C95_likelihood im hit.1]
  · rw [hq]
    exact C95_monotone_partial hi hK (hu s hs) hj hjl

/-! ## Where the claims fail -/

/-- `method_opt='scipy_ls'` never returns a fit: with at least one repeat it raises. -/
theorem C96_scipy_refuted {Θ : Type} (step : Θ → Θ) (ll : Θ → Option ℝ) (thresh : ℝ) (err : Θ → ℝ)
    (inits : List Θ) (a : Answer Θ) :
    fitBest .scipyLs step ll thresh err inits ≠ .ok a ∧
    (inits ≠ [] → fitFull .scipyLs step ll thresh inits = .error "TypeError") := by
  constructor
  · intro h
    unfold fitBest fitFull at h
    dsimp only at h
    by_cases he : inits = []
    · rw [if_pos he] at h; simp [pickBest] at h
    · rw [if_neg he] at h; simp at h
  · intro he
    unfold fitFull
    dsimp only
    rw [if_neg he]

/-- A fit that never settles gives no answer at all instead of its last parameters: the list of
answers is shorter than the number of repeats and `returnfull=False` raises. -/
theorem C96_unsettled_refuted :
    ∃ (step : ℕ → ℕ) (ll : ℕ → Option ℝ),
      fitFull .em step ll 1 [0] = .ok [] ∧
      fitBest .em step ll 1 (fun _ => 0) [0] = .error "ValueError" := by
  refine ⟨fun n => n + 1, fun n => some (2 * n), ?_⟩
  have hn : fitOnce (fun n : ℕ => n + 1) (fun n => some (2 * (n : ℝ))) 1 0 = none := by
    by_contra hne
    obtain ⟨a, ha⟩ := Option.ne_none_iff_exists'.mp hne
    obtain ⟨n, _, hst, _⟩ := (C96_answer _ _ _ _ _).mp ha
    have it : ∀ k, (fun n : ℕ => n + 1)^[k] 0 = k := by
      intro k
      induction k with
      | zero => rfl
      | succ k ih => rw [Function.iterate_succ_apply', ih]
    rcases hst with h | ⟨v, c, h1, h2, h3⟩
    · exact absurd h (by simp)
    · rw [it] at h1 h2
      simp only [Option.some.injEq] at h1 h2
      rw [← h1, ← h2] at h3
      push_cast at h3
      rw [abs_lt] at h3
      linarith [h3.2]
  have hf : fitFull .em (fun n : ℕ => n + 1) (fun n => some (2 * (n : ℝ))) 1 [0] = .ok [] := by
    simp only [fitFull]
    rw [List.filterMap_cons_none hn]
    rfl
  refine ⟨hf, ?_⟩
  unfold fitBest
  rw [hf]
  rfl

/-- When the first pass of a repeat gives nan, the stored `fitted_params` is the array the next
repeat overwrites: the caller reads the starting point of the last repeat, not the parameters the
stored image and residual were computed from. -/
theorem C96_alias_refuted :
    ∃ (step : ℕ → ℕ) (ll : ℕ → Option ℝ) (as : List (Answer ℕ)) (a : Answer ℕ),
      fitFull .em step ll 1 [5, 7] = .ok as ∧ a ∈ as ∧ a.used = 5 ∧ readParams [5, 7] a = 7 := by
  refine ⟨fun _ => 0, fun n => if n = 0 then none else some 0,
    [5, 7].filterMap (fitOnce (fun _ => 0) (fun n : ℕ => if n = 0 then none else some 0) 1),
    ⟨.shared, 5, 0, none⟩, rfl, ?_, rfl, rfl⟩
  apply List.mem_filterMap.mpr
  refine ⟨5, by simp, ?_⟩
  rw [C96_answer]
  refine ⟨0, by norm_num, Or.inl (by simp), fun j hj => absurd hj (Nat.not_lt_zero j), rfl,
    Or.inl ⟨rfl, by simp, rfl, by simp⟩⟩

/-- **C95 fails for the first pass.**  Starting one gaussian from the moments of an image whose
total flux is larger than one (`method_init='greedy'`), the first pass lowers the likelihood by
`S log S`: the starting amplitude is the total flux and EM resets it to one. -/
theorem C95_first_pass_refuted {im : Pix nx ny → ℝ} (hi : GoodImage im) (hS : 1 < ∑ p, im p) :
    likelihoodSpec im (emStep im (fun _ : Fin 1 => greedyInit im 0))
      = likelihoodSpec im (fun _ : Fin 1 => greedyInit im 0)
        - (∑ p, im p) * Real.log (∑ p, im p) ∧
    likelihoodSpec im (emStep im (fun _ : Fin 1 => greedyInit im 0))
      < likelihoodSpec im (fun _ : Fin 1 => greedyInit im 0) := by
  have hu : ∀ k : Fin 1, Usable ((fun _ : Fin 1 => greedyInit im 0) k) := fun _ =>
    (C94_image_moments hi).2.2.2.2.2.2.2.2.2.2.2
  have hu' := (C94_step hi (by norm_num : 0 < 1) hu).1
  have h0 : (0 : ℝ) < ∑ p, im p := im_total_pos hi
  have key : likelihoodSpec im (emStep im (fun _ : Fin 1 => greedyInit im 0))
      = likelihoodSpec im (fun _ : Fin 1 => greedyInit im 0)
        - (∑ p, im p) * Real.log (∑ p, im p) := by
    rw [← C95_likelihood im hu', ← C95_likelihood im hu]
    unfold logLikelihood
    rw [sum_mul, ← sum_sub_distrib]
    refine sum_congr rfl fun p _ => ?_
    rw [← mul_sub]
    congr 1
    have e1 : mixImage (emStep im (fun _ : Fin 1 => greedyInit im 0)) p
        = mvnPdf (p.1.val : ℝ) (p.2.val : ℝ) { easyInit im with amp := 1 } := by
      unfold mixImage mvnPdf2d
      rw [Fin.sum_univ_one, C94_single hi hu]
    have e2 : mixImage (fun _ : Fin 1 => greedyInit im 0) p
        = (∑ p, im p) * mvnPdf (p.1.val : ℝ) (p.2.val : ℝ) { easyInit im with amp := 1 } := by
      unfold mixImage mvnPdf2d
      rw [Fin.sum_univ_one]
      unfold greedyInit greedyResidual mvnPdf
      dsimp only
      rw [show (easyInit im).amp = ∑ p, im p from rfl]
      ring
    have hm : mvnPdf (p.1.val : ℝ) (p.2.val : ℝ) { easyInit im with amp := 1 } ≠ 0 := by
      have := mix_pos (by norm_num : 0 < 1) hu' p
      rw [e1] at this
      exact this.ne'
    rw [e1, e2, Real.log_mul h0.ne' hm]
    ring
  refine ⟨key, ?_⟩
  rw [key]
  have := mul_pos h0 (Real.log_pos hS)
  linarith

/-- **The greedy start does not subtract what it has fitted.**  After the first component the
"residual" image is the image plus the fitted gaussian, so it is larger than the image at every
pixel, and the second component starts with more flux than the whole image. -/
theorem C96_greedy_refuted {im : Pix nx ny → ℝ} (hi : GoodImage im) :
    (∀ p, greedyResidual im 1 p = im p + mvnPdf2d (greedyInit im 0) p ∧
      im p < greedyResidual im 1 p) ∧
    (greedyInit im 0).amp = ∑ p, im p ∧ (∑ p, im p) < (greedyInit im 1).amp := by
  have hu : Usable (greedyInit im 0) := (C94_image_moments hi).2.2.2.2.2.2.2.2.2.2.2
  have hpix : ∀ p : Pix nx ny, greedyResidual im 1 p = im p + mvnPdf2d (greedyInit im 0) p := by
    intro p
    simp only [greedyResidual, greedyInit]
    ring
  have hlt : ∀ p : Pix nx ny, im p < greedyResidual im 1 p := by
    intro p
    rw [hpix p]
    have : 0 < mvnPdf2d (greedyInit im 0) p := mvnPdf_pos hu _ _
    linarith
  refine ⟨fun p => ⟨hpix p, hlt p⟩, rfl, ?_⟩
  obtain ⟨p, _, _, _⟩ := hi.spread
  exact sum_lt_sum (fun q _ => (hlt q).le) ⟨p, mem_univ p, hlt p⟩

/-! ## Concrete cases -/

/-- A 2 by 2 image of ones. -/
def ones : Pix 2 2 → ℝ := fun _ => 1

theorem ones_good : GoodImage ones := by
  refine ⟨fun _ => zero_le_one, (0, 0), (1, 0), (0, 1), zero_lt_one, zero_lt_one, zero_lt_one, ?_⟩
  norm_num

/-- A starting mixture of two different gaussians. -/
def two : Fin 2 → Comp := fun k => ⟨1 / 2, k.val, 0, 1, 2, 1 / 2⟩

theorem two_usable : ∀ k, Usable (two k) := by
  intro k
  refine ⟨?_, ?_, ?_, ?_⟩ <;> norm_num [two]

example : (∀ k, Usable (emStep ones two k)) ∧ ∑ k, (emStep ones two k).amp = 1 :=
  ⟨(C94_step ones_good (by norm_num) two_usable).1,
   (C94_step ones_good (by norm_num) two_usable).2.1⟩

example : ∑ k, (emStep ones two k).amp * (emStep ones two k).mux = 1 / 2 := by
  rw [(C94_moments ones_good (by norm_num) two_usable).1]
  rw [Fintype.sum_prod_type]
  simp [ones, Fin.sum_univ_two]
  norm_num

example : likelihoodSpec ones two ≤ likelihoodSpec ones (emStep ones two) :=
  C95_step ones_good (by norm_num) two_usable (by norm_num [two, Fin.sum_univ_two])

example : likelihoodSpec ones (emStep ones (fun _ : Fin 1 => greedyInit ones 0))
    < likelihoodSpec ones (fun _ : Fin 1 => greedyInit ones 0) :=
  (C95_first_pass_refuted ones_good (by
    rw [Fintype.sum_prod_type]; simp [ones]; norm_num)).2

end

end Forcepho.Em
