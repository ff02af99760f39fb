import Verif.Bounds.Model
import Mathlib.Tactic.Linarith
import Mathlib.Tactic.Positivity
import Mathlib.Tactic.FieldSimp
import Mathlib.Tactic.Ring
import Mathlib.Tactic.NormNum
import Mathlib.Data.List.Basic
import Mathlib.Analysis.SpecialFunctions.Trigonometric.Bounds

/-! # Properties C33-C37 -/

set_option autoImplicit false
set_option linter.unusedSectionVars false

namespace Forcepho.Bounds

/-! ## C33 flux bounds -/

/-- A finite pair of bounds strictly containing a value. -/
def StrictlyContains (p : Option ℝ × Option ℝ) (x : ℝ) : Prop :=
  ∃ lo hi, p = (some lo, some hi) ∧ lo < x ∧ x < hi

/-- The second pair is at least as wide as the first. -/
def Widens (p q : Option ℝ × Option ℝ) : Prop :=
  ∃ lo hi lo' hi', p = (some lo, some hi) ∧ q = (some lo', some hi') ∧ lo' ≤ lo ∧ hi ≤ hi'

lemma fdiv_noise {u f : ℝ} (hu : 0 < u) (hf : f ≠ 0) :
    fdiv |f| (Real.sqrt |f| / u) = some (Real.sqrt |f| * u) := by
  have ha : 0 < |f| := abs_pos.2 hf
  have hs : 0 < Real.sqrt |f| := Real.sqrt_pos.2 ha
  have h2 : Real.sqrt |f| * Real.sqrt |f| = |f| := Real.mul_self_sqrt ha.le
  unfold fdiv
  rw [if_neg (div_pos hs hu).ne']
  congr 1
  rw [div_div_eq_mul_div, div_eq_iff hs.ne']
  nlinarith

/-- Closed form of the bounds of a non-zero flux. -/
lemma rawBound_eq {u f : ℝ} (hu : 0 < u) (hf : f ≠ 0) :
    rawBound u f =
      (some (if f ≤ (u / 2) ^ 2 then min (f - Real.sqrt |f| * u) (-(u / 2) ^ 2)
        else f - Real.sqrt |f| * u),
       some (max (f + Real.sqrt |f| * u) ((u / 2) ^ 2))) := by
  simp only [rawBound, fdiv_noise hu hf]
  split <;> rfl

lemma rawBound_zero (u : ℝ) : rawBound u 0 = (none, none) := by
  simp [rawBound, fdiv]

lemma fluxBounds_get {u f : ℝ} {fs : List ℝ} {i : Nat} (hu : 0 < u) (hf : f ≠ 0)
    (h : fs[i]? = some f) : (fluxBounds u fs)[i]? = some (rawBound u f) := by
  simp only [fluxBounds, List.getElem?_map, h, Option.map_some, rawBound_eq hu hf]
  rfl

lemma fluxBounds_length (u : ℝ) (fs : List ℝ) : (fluxBounds u fs).length = fs.length := by
  simp [fluxBounds]

/-- **C33 (no precision matrix).** Every non-zero flux lies strictly inside its bounds, whatever
the other fluxes are. -/
theorem C33_contain {u f : ℝ} {fs : List ℝ} {i : Nat} (hu : 0 < u) (hf : f ≠ 0)
    (h : fs[i]? = some f) : ∃ p, (fluxBounds u fs)[i]? = some p ∧ StrictlyContains p f := by
  refine ⟨_, fluxBounds_get hu hf h, ?_⟩
  have hs : 0 < Real.sqrt |f| * u := mul_pos (Real.sqrt_pos.2 (abs_pos.2 hf)) hu
  refine ⟨_, _, rawBound_eq hu hf, ?_, ?_⟩
  · split
    · exact lt_of_le_of_lt (min_le_left _ _) (by linarith)
    · linarith
  · exact lt_of_lt_of_le (by linarith) (le_max_left _ _)

/-- **C33.** Bounds do not shrink when the number of sigmas grows. -/
theorem C33_widen {u u' f : ℝ} {fs : List ℝ} {i : Nat} (hu : 0 < u) (huu : u ≤ u')
    (hf : f ≠ 0) (h : fs[i]? = some f) :
    ∃ p q, (fluxBounds u fs)[i]? = some p ∧ (fluxBounds u' fs)[i]? = some q ∧ Widens p q := by
  have hu' : 0 < u' := lt_of_lt_of_le hu huu
  refine ⟨_, _, fluxBounds_get hu hf h, fluxBounds_get hu' hf h, _, _, _, _, rawBound_eq hu hf,
    rawBound_eq hu' hf, ?_, ?_⟩
  · have hs : Real.sqrt |f| * u ≤ Real.sqrt |f| * u' :=
      mul_le_mul_of_nonneg_left huu (Real.sqrt_nonneg _)
    have hq : (u / 2) ^ 2 ≤ (u' / 2) ^ 2 := by nlinarith
    by_cases h1 : f ≤ (u / 2) ^ 2
    · rw [if_pos h1, if_pos (h1.trans hq)]
      exact min_le_min (by linarith) (by linarith)
    · rw [if_neg h1]
      split
      · exact (min_le_left _ _).trans (by linarith)
      · linarith
  · have hs : Real.sqrt |f| * u ≤ Real.sqrt |f| * u' :=
      mul_le_mul_of_nonneg_left huu (Real.sqrt_nonneg _)
    have hq : (u / 2) ^ 2 ≤ (u' / 2) ^ 2 := by nlinarith
    exact max_le_max (by linarith) hq

/-- The bounds always let the flux be positive and, for small fluxes, negative. -/
theorem C33_allow_sign {u f : ℝ} {fs : List ℝ} {i : Nat} (hu : 0 < u) (hf : f ≠ 0)
    (h : fs[i]? = some f) :
    ∃ lo hi, (fluxBounds u fs)[i]? = some (some lo, some hi) ∧ (u / 2) ^ 2 ≤ hi ∧
      (f ≤ (u / 2) ^ 2 → lo ≤ -(u / 2) ^ 2) := by
  refine ⟨_, _, (fluxBounds_get hu hf h).trans (congrArg some (rawBound_eq hu hf)),
    le_max_right _ _, fun hle => ?_⟩
  rw [if_pos hle]; exact min_le_right _ _

/-- Non-vacuity: a positive and a negative flux. -/
example : ∃ p, (fluxBounds 5 [100, -3])[1]? = some p ∧ StrictlyContains p (-3) :=
  C33_contain (by norm_num) (by norm_num) rfl

/-- **C33 fails at zero flux**: the lower bound is the flux itself, so it is not strictly below. -/
theorem C33_refuted_zero {u : ℝ} {fs : List ℝ} {i : Nat} (h : fs[i]? = some 0) :
    ∃ hi, (fluxBounds u fs)[i]? = some (some 0, hi) := by
  simp only [fluxBounds, List.getElem?_map, h, Option.map_some, rawBound_zero]
  exact ⟨_, rfl⟩

lemma nanmax_none (n : Nat) : nanmax (List.replicate n none) = none := by
  induction n with
  | zero => rfl
  | succ n ih => simp [List.replicate_succ, nanmax, ih]

/-- If every flux is zero the upper bound is not even a number. -/
theorem C33_all_zero (u : ℝ) (n i : Nat) (hi : i < n) :
    (fluxBounds u (List.replicate n 0))[i]? = some (some 0, none) := by
  simp only [fluxBounds, List.map_replicate, rawBound_zero, nanmax_none]
  simp [hi]

lemma nanmax_spec (xs : List (Option ℝ)) (m : ℝ) (h : some m ∈ xs) :
    ∃ t, nanmax xs = some t ∧ some t ∈ xs ∧ ∀ y, some y ∈ xs → y ≤ t := by
  induction xs generalizing m with
  | nil => simp at h
  | cons x xs ih =>
    by_cases hx : ∃ m', some m' ∈ xs
    · obtain ⟨m', hm'⟩ := hx
      obtain ⟨t, h1, h2, h3⟩ := ih m' hm'
      cases x with
      | none =>
        refine ⟨t, by simp [nanmax, h1], by simp [h2], ?_⟩
        intro y hy
        simp at hy
        exact h3 y hy
      | some a =>
        refine ⟨max a t, by simp [nanmax, h1], ?_, ?_⟩
        · rcases max_choice a t with e | e <;> rw [e] <;> simp [h2]
        · intro y hy
          simp at hy
          rcases hy with rfl | hy
          · exact le_max_left _ _
          · exact (h3 y hy).trans (le_max_right _ _)
    · rcases List.mem_cons.1 h with rfl | h'
      · have hn : ∀ y, some y ∉ xs := fun y hy => hx ⟨y, hy⟩
        have : nanmax xs = none := by
          clear h hx ih
          induction xs with
          | nil => rfl
          | cons z zs ih =>
            cases z with
            | none => simp only [nanmax]; exact ih fun y hy => hn y (by simp [hy])
            | some a => exact absurd (by simp) (hn a)
        refine ⟨m, by simp [nanmax, this], by simp, ?_⟩
        intro y hy
        simp at hy
        rcases hy with rfl | hy
        · exact le_rfl
        · exact absurd hy (hn y)
      · exact absurd ⟨m, h'⟩ hx

/-- A zero flux next to a non-zero one gets the largest of the other upper bounds: some non-zero
flux has that upper bound and none has a larger one. -/
theorem C33_zero_upper {u g : ℝ} {fs : List ℝ} {i j : Nat} (hu : 0 < u)
    (hi : fs[i]? = some 0) (hj : fs[j]? = some g) (hg : g ≠ 0) :
    ∃ t, (fluxBounds u fs)[i]? = some (some 0, some t) ∧ 0 < t ∧
      (∃ f ∈ fs, (rawBound u f).2 = some t) ∧
      ∀ (k : Nat) (f : ℝ) (lo : Option ℝ) (hi' : ℝ), fs[k]? = some f → f ≠ 0 → (fluxBounds u fs)[k]? = some (lo, some hi') → hi' ≤ t := by
  have hmem : ∀ f ∈ fs, f ≠ 0 → some (max (f + Real.sqrt |f| * u) ((u / 2) ^ 2)) ∈
      (fs.map (rawBound u)).map (·.2) := by
    intro f hf hf0
    refine List.mem_map.2 ⟨_, List.mem_map.2 ⟨f, hf, rfl⟩, ?_⟩
    rw [rawBound_eq hu hf0]
  obtain ⟨t, h1, h2, h3⟩ := nanmax_spec _ _ (hmem g (List.mem_of_getElem? hj) hg)
  refine ⟨t, ?_, ?_, ?_, ?_⟩
  · simp only [fluxBounds, List.getElem?_map, hi, Option.map_some, rawBound_zero, h1]
    rfl
  · have := h3 _ (hmem g (List.mem_of_getElem? hj) hg)
    have h4 : 0 < (u / 2) ^ 2 := by positivity
    exact lt_of_lt_of_le (lt_of_lt_of_le h4 (le_max_right _ _)) this
  · obtain ⟨p, hp, hpt⟩ := List.mem_map.1 h2
    obtain ⟨f, hf, rfl⟩ := List.mem_map.1 hp
    exact ⟨f, hf, hpt⟩
  · intro k f lo hi' hk hf hb
    rw [fluxBounds_get hu hf hk, rawBound_eq hu hf] at hb
    have he : max (f + Real.sqrt |f| * u) ((u / 2) ^ 2) = hi' := by
      simpa using congrArg Prod.snd (Option.some.inj hb)
    exact he ▸ h3 _ (hmem f (List.mem_of_getElem? hk) hf)

/-- **C33 (precision matrix).** With a positive uncertainty from the precision matrix, or a
positive flux and any uncertainty, the flux lies strictly inside; a zero flux is included. -/
theorem C33_prec_contain {u snrMax s f : ℝ} (hu : 0 < u) (hsnr : 0 < snrMax)
    (h : 0 < s ∨ 0 < f) :
    (fluxBoundPrec u snrMax s f).1 < f ∧ f < (fluxBoundPrec u snrMax s f).2 := by
  have hσ : 0 < max s (f / snrMax) := by
    rcases h with h | h
    · exact lt_of_lt_of_le h (le_max_left _ _)
    · exact lt_of_lt_of_le (div_pos h hsnr) (le_max_right _ _)
  have := mul_pos hu hσ
  simp only [fluxBoundPrec]
  exact ⟨by linarith, lt_of_lt_of_le (by linarith) (le_max_left _ _)⟩

/-- Bounds with a precision matrix widen with the number of sigmas, let the flux be positive, and
are never narrower than the given fraction of the flux. -/
theorem C33_prec_width {u u' snrMax s f : ℝ} (hu : 0 < u) (huu : u ≤ u') (hs : 0 < s) :
    (fluxBoundPrec u' snrMax s f).1 ≤ (fluxBoundPrec u snrMax s f).1 ∧
    (fluxBoundPrec u snrMax s f).2 ≤ (fluxBoundPrec u' snrMax s f).2 ∧
    0 < (fluxBoundPrec u snrMax s f).2 ∧
    (fluxBoundPrec u snrMax s f).1 ≤ f - u * (f / snrMax) ∧
    f + u * (f / snrMax) ≤ (fluxBoundPrec u snrMax s f).2 ∧
    (fluxBoundPrec u snrMax s f).1 ≤ f - u * s := by
  have hσ : 0 < max s (f / snrMax) := lt_of_lt_of_le hs (le_max_left _ _)
  have h1 : u * max s (f / snrMax) ≤ u' * max s (f / snrMax) :=
    mul_le_mul_of_nonneg_right huu hσ.le
  have h2 : u * (f / snrMax) ≤ u * max s (f / snrMax) :=
    mul_le_mul_of_nonneg_left (le_max_right _ _) hu.le
  have h3 : u * s ≤ u * max s (f / snrMax) := mul_le_mul_of_nonneg_left (le_max_left _ _) hu.le
  simp only [fluxBoundPrec]
  refine ⟨by linarith, max_le_max (by linarith) h1,
    lt_of_lt_of_le (mul_pos hu hσ) (le_max_right _ _), by linarith,
    le_trans (by linarith) (le_max_left _ _), by linarith⟩

example : (fluxBoundPrec 5 10 2 (-1)).1 < -1 ∧ -1 < (fluxBoundPrec 5 10 2 (-1)).2 :=
  C33_prec_contain (by norm_num) (by norm_num) (Or.inl (by norm_num))

/-! ## C34 the bounds catalog -/

/-- `mapIdx` at an index. -/
lemma makeBounds_rows {o : Options} {fn : List String} {act : List Row} {unc : Option (List Row)}
    {b : List BRow} (h : makeBounds o fn act unc = .ok b) :
    b.length = act.length ∧ (["source_index"] ++ fn ++ shapeNames).Nodup := by
  unfold makeBounds at h
  split at h
  · rename_i hn
    cases h
    exact ⟨by simp, hn⟩
  · cases h

/-- `make_bounds` succeeds exactly when the column names are distinct, otherwise it raises
`ValueError`. -/
theorem C34_ok_iff (o : Options) (fn : List String) (act : List Row)
    (unc : Option (List Row)) :
    ((∃ b, makeBounds o fn act unc = .ok b) ↔ (["source_index"] ++ fn ++ shapeNames).Nodup) ∧
    (¬ (["source_index"] ++ fn ++ shapeNames).Nodup →
      makeBounds o fn act unc = .error .valueError) := by
  constructor
  · constructor
    · rintro ⟨b, h⟩; exact (makeBounds_rows h).2
    · intro h; exact ⟨_, by unfold makeBounds; rw [if_pos h]⟩
  · intro h; unfold makeBounds; rw [if_neg h]

lemma not_mem_filters {fn : List String} (h : (["source_index"] ++ fn ++ shapeNames).Nodup)
    {c : String} (hc : c ∈ shapeNames) : c ∉ fn := by
  intro hf
  rw [List.append_assoc] at h
  have h2 := (List.nodup_append.1 h).2.1
  exact (List.nodup_append.1 h2).2.2 c hf c hc rfl

/-- **C34 (shape of the catalog).** One row per source, in order; the shape bounds are the
requested ranges; position bounds are centred on the source, with the declination half-width
`dpos[1]/3600` and the right-ascension half-width `dpos[0]/3600` stretched by `1/cos(dec)`. -/
theorem C34_shape {o : Options} {fn : List String} {act : List Row}
    {unc : Option (List Row)} {b : List BRow} (h : makeBounds o fn act unc = .ok b) :
    b.length = act.length ∧
    ∀ (i : Nat) (r : Row) (br : BRow), act[i]? = some r → b[i]? = some br →
      br "q" = (some o.q.1, some o.q.2) ∧ br "pa" = (some o.pa.1, some o.pa.2) ∧
      br "sersic" = (some o.sersic.1, some o.sersic.2) ∧
      br "rhalf" = (some o.rhalf.1, some o.rhalf.2) ∧
      (∀ d : ℝ × ℝ, o.dpos = some d ∨ (o.dpos = none ∧ d = (o.nPix * o.pixscale, o.nPix * o.pixscale)) →
        br "dec" = (some (r "dec" - d.2 / 3600), some (r "dec" + d.2 / 3600)) ∧
        br "ra" = (some (r "ra" - d.1 / 3600 / Real.cos (r "dec" * Real.pi / 180)),
                   some (r "ra" + d.1 / 3600 / Real.cos (r "dec" * Real.pi / 180)))) := by
  refine ⟨(makeBounds_rows h).1, ?_⟩
  intro i r br hr hb
  have hn := (makeBounds_rows h).2
  have nm := fun c hc => not_mem_filters hn (c := c) hc
  unfold makeBounds at h
  rw [if_pos hn] at h
  cases h
  simp only [List.getElem?_mapIdx, hr, Option.map_some, Option.some.injEq] at hb
  subst hb
  have h1 := nm "q" (by decide)
  have h2 := nm "pa" (by decide)
  have h3 := nm "sersic" (by decide)
  have h4 := nm "rhalf" (by decide)
  have h5 := nm "dec" (by decide)
  have h6 := nm "ra" (by decide)
  refine ⟨by simp [h1, fin], by simp [h2, fin], by simp [h3, fin], by simp [h4, fin], ?_⟩
  intro d hd
  have hw : halfWidths o (r "dec") =
      (d.1 / 3600 / Real.cos (r "dec" * Real.pi / 180), d.2 / 3600) := by
    rcases hd with hd | ⟨hd, rfl⟩ <;> simp [halfWidths, hd]
  exact ⟨by simp [h5, hw], by simp [h6, hw]⟩

/-- **C34 (fluxes).** A flux column holds, for each source, the flux plus or minus `n_sig` times
the uncertainty, floored at five percent, or the automatic bounds when there is no uncertainty
catalog. -/
theorem C34_flux {o : Options} {fn : List String} {act : List Row}
    {unc : Option (List Row)} {b : List BRow} (h : makeBounds o fn act unc = .ok b)
    {i : Nat} {r : Row} {br : BRow} (hr : act[i]? = some r) (hb : b[i]? = some br)
    {c : String} (hc : c ∈ fn) :
    (∀ us ur, unc = some us → us[i]? = some ur →
      br c = (some (r c - o.nSig * max (ur c) (0.05 * |r c|)),
              some (r c + o.nSig * max (ur c) (0.05 * |r c|)))) ∧
    (unc = none → (fluxBounds o.nSig (act.map (· c)))[i]? = some (br c)) := by
  have hn := (makeBounds_rows h).2
  unfold makeBounds at h
  rw [if_pos hn] at h
  cases h
  simp only [List.getElem?_mapIdx, hr, Option.map_some, Option.some.injEq] at hb
  subst hb
  constructor
  · rintro us ur rfl hu
    have hz : ((act.map (· c)).zip (us.map (· c)))[i]? = some (r c, ur c) := by
      rw [List.getElem?_zip_eq_some]; simp [hr, hu]
    have ha : |0.05 * r c| = 0.05 * |r c| := by rw [abs_mul]; norm_num
    simp only [hc, if_true, bandBounds, Option.map_some, List.getElem?_map, hz, Option.getD_some, ha]
  · rintro rfl
    have hl : i < (fluxBounds o.nSig (act.map (· c))).length := by
      rw [fluxBounds_length, List.length_map]
      exact (List.getElem?_eq_some_iff.1 hr).1
    simp only [hc, if_true, bandBounds, Option.map_none, List.getElem?_eq_getElem hl,
      Option.getD_some]

/-- Every bounded column strictly contains the source's value: what a fit needs to start. -/
def Interior (cols : List String) (r : Row) (b : String → ℝ × ℝ) : Prop :=
  ∀ c ∈ cols, (b c).1 < r c ∧ r c < (b c).2

/-- **C34 (check).** The containment check passes exactly the catalogs whose every source is
strictly inside in every column, and otherwise fails an assertion. -/
theorem C34_check (cols : List String) (cat : List Row) (bcat : List (String → ℝ × ℝ)) :
    (checkBounds cols cat bcat = .ok () ↔
      ∀ (i : Nat) (r : Row) (b : String → ℝ × ℝ), cat[i]? = some r → bcat[i]? = some b →
        Interior cols r b) ∧
    (checkBounds cols cat bcat ≠ .ok () → checkBounds cols cat bcat = .error .assertionError) := by
  have key : ∀ P : Row → (String → ℝ × ℝ) → Prop,
      (∀ p ∈ cat.zip bcat, P p.1 p.2) ↔
        ∀ (i : Nat) (r : Row) (b : String → ℝ × ℝ), cat[i]? = some r → bcat[i]? = some b → P r b := by
    intro P
    constructor
    · intro h i r b hr hb
      have hz : (cat.zip bcat)[i]? = some (r, b) := by
        rw [List.getElem?_zip_eq_some]; exact ⟨hr, hb⟩
      exact h (r, b) (List.mem_of_getElem? hz)
    · rintro h ⟨r, b⟩ hp
      obtain ⟨i, hi⟩ := List.mem_iff_getElem?.1 hp
      rw [List.getElem?_zip_eq_some] at hi
      exact h i r b hi.1 hi.2
  induction cols with
  | nil => simp [checkBounds, Interior]
  | cons c cs ih =>
    unfold checkBounds
    by_cases h1 : ∀ p ∈ cat.zip bcat, (p.2 c).1 < p.1 c
    · rw [if_pos h1]
      by_cases h2 : ∀ p ∈ cat.zip bcat, p.1 c < (p.2 c).2
      · rw [if_pos h2]
        refine ⟨ih.1.trans ?_, ih.2⟩
        rw [key fun r b => (b c).1 < r c] at h1
        rw [key fun r b => r c < (b c).2] at h2
        constructor
        · intro h i r b hr hb c' hc'
          rcases List.mem_cons.1 hc' with rfl | hc'
          · exact ⟨h1 i r b hr hb, h2 i r b hr hb⟩
          · exact h i r b hr hb c' hc'
        · intro h i r b hr hb c' hc'
          exact h i r b hr hb c' (List.mem_cons_of_mem _ hc')
      · rw [if_neg h2]
        refine ⟨Iff.intro (fun h => nomatch h) (fun h => ?_), fun _ => rfl⟩
        exact absurd ((key fun r b => r c < (b c).2).2
          fun i r b hr hb => (h i r b hr hb c (by simp)).2) h2
    · rw [if_neg h1]
      refine ⟨Iff.intro (fun h => nomatch h) (fun h => ?_), fun _ => rfl⟩
      exact absurd ((key fun r b => (b c).1 < r c).2
        fun i r b hr hb => (h i r b hr hb c (by simp)).1) h1

/-- The bounds vectors in scene order, stated entry by entry. -/
lemma flatten_const {α : Type} {w : Nat} (ls : List (List α)) (hw : ∀ l ∈ ls, l.length = w)
    {i j : Nat} {l : List α} (hi : ls[i]? = some l) (hj : j < w) :
    ls.flatten[i * w + j]? = l[j]? := by
  induction ls generalizing i with
  | nil => simp at hi
  | cons x xs ih =>
    have hx : x.length = w := hw x (by simp)
    cases i with
    | zero =>
      simp at hi
      subst hi
      simp only [List.flatten_cons, Nat.zero_mul, Nat.zero_add]
      rw [List.getElem?_append_left (by omega)]
    | succ i =>
      simp only [List.flatten_cons]
      rw [List.getElem?_append_right (by rw [hx, Nat.succ_mul]; omega)]
      have : (i + 1) * w + j - x.length = i * w + j := by rw [hx, Nat.succ_mul]; omega
      rw [this]
      exact ih (fun l hl => hw l (by simp [hl])) (by simpa using hi)

/-- **C34 (vectors).** Entry `i*(nb+6)+j` of the lower (upper) vector is the lower (upper) bound of
the `j`-th parameter of source `i` in the scene order: fluxes, then `ra, dec, q, pa, sersic,
rhalf`, with the reference position subtracted from the two position columns; both vectors have
one entry per parameter. -/
theorem C34_vectors (fn : List String) (ref : ℝ × ℝ) (bcat : List (String → ℝ × ℝ)) :
    (boundsVectors fn ref bcat).1.length = bcat.length * (fn.length + 6) ∧
    (boundsVectors fn ref bcat).2.length = bcat.length * (fn.length + 6) ∧
    ∀ (i j : Nat) (b : String → ℝ × ℝ) (c : String), bcat[i]? = some b →
      (fn ++ ["ra", "dec", "q", "pa", "sersic", "rhalf"])[j]? = some c →
      ∀ off : ℝ, off = (if c = "ra" then ref.1 else if c = "dec" then ref.2 else 0) →
      (boundsVectors fn ref bcat).1[i * (fn.length + 6) + j]? = some ((b c).1 - off) ∧
      (boundsVectors fn ref bcat).2[i * (fn.length + 6) + j]? = some ((b c).2 - off) := by
  have len : ∀ (g : (String → ℝ × ℝ) → String → ℝ),
      ((bcat.map (shiftRow ref)).map
        fun r => fn.map (g r) ++ shapeNames.map (g r)).flatten.length
        = bcat.length * (fn.length + 6) := by
    intro g
    induction bcat with
    | nil => simp
    | cons b bs ih =>
      simp only [List.map_cons, List.flatten_cons, List.length_append, ih]
      simp [shapeNames, Nat.succ_mul]
      omega
  refine ⟨len fun r c => (r c).1, len fun r c => (r c).2, ?_⟩
  intro i j b c hb hc off hoff
  have hj : j < fn.length + 6 := by
    have := (List.getElem?_eq_some_iff.1 hc).1
    simpa using this
  have get : ∀ (g : (String → ℝ × ℝ) → String → ℝ),
      ((bcat.map (shiftRow ref)).map
        fun r => fn.map (g r) ++ shapeNames.map (g r)).flatten[i * (fn.length + 6) + j]?
        = some (g (shiftRow ref b) c) := by
    intro g
    have hrow : ((bcat.map (shiftRow ref)).map
        fun r => fn.map (g r) ++ shapeNames.map (g r))[i]? =
        some ((fn ++ shapeNames).map (g (shiftRow ref b))) := by
      simp [hb]
    rw [flatten_const _ _ hrow hj]
    · rw [List.getElem?_map]
      have hc' : (fn ++ shapeNames)[j]? = some c := hc
      rw [hc']; rfl
    · intro l hl
      obtain ⟨r, -, rfl⟩ := List.mem_map.1 hl
      simp [shapeNames]
  have hs : shiftRow ref b c = ((b c).1 - off, (b c).2 - off) := by
    subst hoff
    unfold shiftRow
    split
    · rfl
    · split
      · rfl
      · simp
  exact ⟨(get fun r c => (r c).1).trans (by rw [hs]), (get fun r c => (r c).2).trans (by rw [hs])⟩

/-- Finite bounds read off a bounds row. -/
noncomputable def finite (b : BRow) : String → ℝ × ℝ := fun c => ((b c).1.getD 0, (b c).2.getD 0)

/-- **C34 (made bounds pass the check).** If every flux is non-zero or has a positive uncertainty,
the shapes are strictly inside the requested ranges, the position margins are positive and
declinations are off the poles, then the made bounds are accepted by the containment check. -/
theorem C34_made_pass {o : Options} {fn : List String} {act : List Row}
    {unc : Option (List Row)} {b : List BRow} (h : makeBounds o fn act unc = .ok b)
    (hsig : 0 < o.nSig) {d : ℝ × ℝ}
    (hd : o.dpos = some d ∨ (o.dpos = none ∧ d = (o.nPix * o.pixscale, o.nPix * o.pixscale)))
    (hd1 : 0 < d.1) (hd2 : 0 < d.2)
    (hdec : ∀ r ∈ act, |r "dec"| < 90)
    (hq : ∀ r ∈ act, o.q.1 < r "q" ∧ r "q" < o.q.2)
    (hpa : ∀ r ∈ act, o.pa.1 < r "pa" ∧ r "pa" < o.pa.2)
    (hs : ∀ r ∈ act, o.sersic.1 < r "sersic" ∧ r "sersic" < o.sersic.2)
    (hrh : ∀ r ∈ act, o.rhalf.1 < r "rhalf" ∧ r "rhalf" < o.rhalf.2)
    (hu : ∀ us, unc = some us → us.length = act.length)
    (hflux : ∀ (i : Nat) (r : Row), act[i]? = some r → ∀ c ∈ fn,
      r c ≠ 0 ∨ ∃ us ur, unc = some us ∧ us[i]? = some ur ∧ 0 < ur c) :
    checkBounds (fn ++ ["ra", "dec", "q", "pa", "sersic", "rhalf"]) act (b.map finite) = .ok () := by
  rw [(C34_check _ _ _).1]
  intro i r fb hr hfb
  rw [List.getElem?_map] at hfb
  obtain ⟨br, hbr, rfl⟩ := Option.map_eq_some_iff.1 hfb
  obtain ⟨-, hsh⟩ := C34_shape h
  obtain ⟨e1, e2, e3, e4, e5⟩ := hsh i r br hr hbr
  obtain ⟨e5, e6⟩ := e5 d hd
  have hm := List.mem_of_getElem? hr
  have hcos : 0 < Real.cos (r "dec" * Real.pi / 180) := by
    have ha := abs_lt.1 (hdec r hm)
    have hp := Real.pi_pos
    refine Real.cos_pos_of_mem_Ioo ⟨?_, ?_⟩ <;> nlinarith [ha.1, ha.2]
  have hd1' : 0 < d.1 / 3600 / Real.cos (r "dec" * Real.pi / 180) := by positivity
  have hd2' : 0 < d.2 / 3600 := by positivity
  intro c hc
  rcases List.mem_append.1 hc with hc | hc
  · obtain ⟨f1, f2⟩ := C34_flux h hr hbr hc
    cases unc with
    | none =>
      have hne : r c ≠ 0 := by
        rcases hflux i r hr c hc with h | ⟨us, _, h, _⟩
        · exact h
        · cases h
      have hg : (act.map (· c))[i]? = some (r c) := by simp [hr]
      obtain ⟨p, hp, lo, hi, rfl, h1, h2⟩ := C33_contain hsig hne hg
      have := (f2 rfl).symm.trans hp
      have hb : br c = (some lo, some hi) := Option.some.inj this
      simp only [finite, hb]
      exact ⟨h1, h2⟩
    | some us =>
      have hlt : i < us.length := by
        rw [hu us rfl]; exact (List.getElem?_eq_some_iff.1 hr).1
      have hui : us[i]? = some us[i] := List.getElem?_eq_getElem hlt
      have hb := f1 us _ rfl hui
      have hpos : 0 < max (us[i] c) (0.05 * |r c|) := by
        rcases hflux i r hr c hc with h | ⟨us', ur, he, hur, hp⟩
        · exact lt_of_lt_of_le (mul_pos (by norm_num) (abs_pos.2 h)) (le_max_right _ _)
        · cases he
          rw [hui] at hur
          cases hur
          exact lt_of_lt_of_le hp (le_max_left _ _)
      have := mul_pos hsig hpos
      simp only [finite, hb, Option.getD_some]
      exact ⟨by linarith, by linarith⟩
  · simp only [List.mem_cons, List.not_mem_nil, or_false] at hc
    rcases hc with rfl | rfl | rfl | rfl | rfl | rfl
    · simp only [finite, e6, Option.getD_some]; exact ⟨by linarith, by linarith⟩
    · simp only [finite, e5, Option.getD_some]; exact ⟨by linarith, by linarith⟩
    · simp only [finite, e1, Option.getD_some]; exact hq r hm
    · simp only [finite, e2, Option.getD_some]; exact hpa r hm
    · simp only [finite, e3, Option.getD_some]; exact hs r hm
    · simp only [finite, e4, Option.getD_some]; exact hrh r hm

/-- Options and a catalog meeting the hypotheses of `C34_made_pass`. -/
def exOpts : Options :=
  { nSig := 5, dpos := none, nPix := 2, pixscale := 0.03, q := (0.4, 1), pa := (-2, 2),
    rhalf := (0.03, 0.3), sersic := (1, 5) }

/-- A galaxy at declination -27. -/
def exRow : Row := fun c =>
  if c = "F200W" then -4 else if c = "ra" then 53 else if c = "dec" then -27
  else if c = "q" then 0.9 else if c = "pa" then 1 else if c = "sersic" then 2 else 0.1

example : ∃ b, makeBounds exOpts ["F200W"] [exRow, exRow] none = .ok b ∧
    checkBounds (["F200W"] ++ ["ra", "dec", "q", "pa", "sersic", "rhalf"]) [exRow, exRow]
      (b.map finite) = .ok () := by
  obtain ⟨b, hb⟩ := (C34_ok_iff exOpts ["F200W"] [exRow, exRow] none).1.2 (by decide)
  refine ⟨b, hb, C34_made_pass hb (by norm_num [exOpts]) (d := (0.06, 0.06))
    (Or.inr ⟨rfl, by norm_num [exOpts]⟩) (by norm_num) (by norm_num) ?_ ?_ ?_ ?_ ?_ ?_ ?_⟩
  · intro r hr; simp at hr; subst hr; simp only [exRow, String.reduceEq, if_false, if_true]; norm_num [abs_lt]
  · intro r hr; simp at hr; subst hr; simp only [exRow, exOpts, String.reduceEq, if_false, if_true]; norm_num
  · intro r hr; simp at hr; subst hr; simp only [exRow, exOpts, String.reduceEq, if_false, if_true]; norm_num
  · intro r hr; simp at hr; subst hr; simp only [exRow, exOpts, String.reduceEq, if_false, if_true]; norm_num
  · intro r hr; simp at hr; subst hr; simp only [exRow, exOpts, String.reduceEq, if_false, if_true]; norm_num
  · intro us h; cases h
  · intro i r hr c hc
    have hm := List.mem_of_getElem? hr
    simp at hm hc
    subst hm hc
    left; simp only [exRow, if_true]; norm_num

/-- A zero flux with a zero uncertainty gives an empty interval, which the check rejects whatever
the other values are. -/
theorem C34_degenerate {o : Options} {fn : List String} {act us : List Row} {b : List BRow}
    (h : makeBounds o fn act (some us) = .ok b) {i : Nat} {r ur : Row} {c : String}
    (hr : act[i]? = some r) (hur : us[i]? = some ur) (hc : c ∈ fn)
    (h0 : r c = 0) (hu0 : ur c = 0) :
    checkBounds (fn ++ ["ra", "dec", "q", "pa", "sersic", "rhalf"]) act (b.map finite)
      = .error .assertionError := by
  apply (C34_check _ _ _).2
  rw [Ne, (C34_check _ _ _).1]
  intro hall
  have hlen := (makeBounds_rows h).1
  have hlt : i < b.length := by rw [hlen]; exact (List.getElem?_eq_some_iff.1 hr).1
  have hbr : b[i]? = some b[i] := List.getElem?_eq_getElem hlt
  have hf := (C34_flux h hr hbr hc).1 us ur rfl hur
  have := hall i r (finite b[i]) hr (by rw [List.getElem?_map, hbr]; rfl) c (by simp [hc])
  simp [finite, hf, h0, hu0] at this

/-! ## C35 adjusting the bounds -/

section Ordered
variable {K : Type} [Field K] [LinearOrder K] [IsStrictOrderedRing K]

lemma mapM_ok {α β : Type} {f : α → Except Err β} {xs : List α} {ys : List β}
    (h : xs.mapM f = .ok ys) : List.Forall₂ (fun x y => f x = .ok y) xs ys := by
  induction xs generalizing ys with
  | nil => simp [pure, Except.pure] at h; subst h; exact .nil
  | cons x xs ih =>
    rw [List.mapM_cons] at h
    cases hx : f x with
    | error e => rw [hx] at h; cases h
    | ok y =>
      rw [hx] at h
      cases hxs : xs.mapM f with
      | error e => rw [hxs] at h; cases h
      | ok zs =>
        rw [hxs] at h
        cases h
        exact .cons hx (ih hxs)

/-- **C35 is refuted**: with a positive margin, whenever fluxes are given, *every* flux comes out
strictly below its own lower bound, namely at the bound minus the margin, whatever it was before. -/
theorem C35_refuted {minflux : Option K} {fac eps : K} (heps : 0 < eps)
    {ss ts : List (Slot K)} (h : adjustBounds true minflux fac eps ss = .ok ts) :
    ∀ t ∈ ts, ∀ f, t.flux = some f → f < t.lo ∧ f = t.lo - eps := by
  have h2 := mapM_ok (show ss.mapM (adjustSlot minflux fac eps) = .ok ts from h)
  intro t ht f hf
  obtain ⟨i, hi⟩ := List.mem_iff_getElem?.1 ht
  obtain ⟨hlen, hall⟩ := List.forall₂_iff_get.1 h2
  obtain ⟨hlt, hti⟩ := List.getElem?_eq_some_iff.1 hi
  have hs := hall i (by omega) hlt
  simp only [List.get_eq_getElem, hti] at hs
  revert hs
  generalize ss[i] = s
  intro hs
  unfold adjustSlot at hs
  simp only at hs
  split at hs
  · cases hs
  · cases hs
    simp only at hf ⊢
    obtain ⟨g, -, rfl⟩ := Option.map_eq_some_iff.1 hf
    refine ⟨lt_of_le_of_lt (min_le_right _ _) (by linarith), ?_⟩
    exact min_eq_right (le_trans (by linarith) (le_max_right _ _))

/-- A realistic call: bounds (0, 10), flux 5, margin 1/1000: the flux becomes -1/1000. -/
example : ((adjustBounds (K := ℚ) true none 0 (1/1000) [⟨0, 10, some 5⟩]).toOption.map
    fun l => l.map fun t => (t.lo, t.hi, t.flux)) = some [(0, 10, some (-1/1000))] := by
  decide +kernel

/-- **C35 (partial).** What does hold: bounds only widen; the lower bound ends at most `minflux`;
with a positive factor the upper bound ends at least `factor` times the flux; and a flux inside the
old bounds is inside the new ones (before the faulty clip moves it). -/
theorem C35_bounds_partial {minflux : Option K} {fac eps : K} {s t : Slot K}
    (h : adjustSlot minflux fac eps s = .ok t) :
    t.lo ≤ s.lo ∧ s.hi ≤ t.hi ∧ (∀ m, minflux = some m → t.lo ≤ m) ∧
    (∀ f, s.flux = some f → 0 < fac → f * fac ≤ t.hi) ∧
    (minflux = none → t.lo = s.lo) ∧ (¬ 0 < fac → t.hi = s.hi) ∧
    (∀ f, s.flux = some f → s.lo < f → f < s.hi → t.lo < f ∧ f < t.hi) ∧
    (t.flux.isSome = s.flux.isSome) := by
  unfold adjustSlot at h
  simp only at h
  split at h
  · cases h
  · rename_i hi hhi
    cases h
    have hlo : (match minflux with | some m => min s.lo m | none => s.lo) ≤ s.lo := by
      split
      · exact min_le_left _ _
      · exact le_rfl
    have hhi' : s.hi ≤ hi := by
      split at hhi
      · split at hhi
        · cases hhi; exact le_max_left _ _
        · cases hhi
      · cases hhi; exact le_rfl
    refine ⟨hlo, hhi', ?_, ?_, ?_, ?_, ?_, ?_⟩
    · rintro m rfl; exact min_le_right _ _
    · intro f hf hp
      rw [if_pos hp, hf] at hhi
      cases hhi; exact le_max_right _ _
    · rintro rfl; rfl
    · intro hp
      rw [if_neg hp] at hhi
      cases hhi; rfl
    · intro f _ h1 h2
      exact ⟨lt_of_le_of_lt hlo h1, lt_of_lt_of_le h2 hhi'⟩
    · cases s.flux <;> rfl

/-- The two ways the call fails: a scene object instead of an array, and a factor without fluxes. -/
theorem C35_errors (minflux : Option K) (fac eps : K) (ss : List (Slot K)) :
    adjustBounds false minflux fac eps ss = .error .attributeError ∧
    (0 < fac → ∀ s rest, ss = s :: rest → s.flux = none →
      adjustBounds true minflux fac eps ss = .error .typeError) ∧
    (¬ 0 < fac → ∃ ts, adjustBounds true minflux fac eps ss = .ok ts ∧ ts.length = ss.length) := by
  refine ⟨rfl, ?_, ?_⟩
  · rintro hp s rest rfl hf
    have : adjustSlot minflux fac eps s = .error .typeError := by
      unfold adjustSlot
      simp [hp, hf]
    simp only [adjustBounds, if_true, List.mapM_cons, this]
    rfl
  · intro hp
    induction ss with
    | nil => exact ⟨[], rfl, rfl⟩
    | cons s ss ih =>
      obtain ⟨ts, h1, h2⟩ := ih
      have : ∃ t, adjustSlot minflux fac eps s = .ok t := by
        unfold adjustSlot
        simp [hp]
      obtain ⟨t, ht⟩ := this
      refine ⟨t :: ts, ?_, by simp [h2]⟩
      simp only [adjustBounds, if_true] at h1 ⊢
      rw [List.mapM_cons, ht, h1]
      rfl

/-! ## C36 position angles -/

lemma paStep_eq {pi x : K} (_hpi : 0 < pi) :
    paStep pi x = if pi / 2 < x then x - pi else if x < pi / 2 then x + pi else x := by
  unfold paStep
  by_cases h1 : pi / 2 < x
  · have h2 : ¬ x < pi / 2 := not_lt.2 h1.le
    simp [h1, h2]
  · by_cases h2 : x < pi / 2 <;> simp [h1, h2]

/-- The result of the loop on one angle of a list. -/
lemma paLoop_get {pi : K} (m : Nat) (xs : List K) :
    (paLoop pi m xs).length = xs.length := by
  induction m generalizing xs with
  | zero => rfl
  | succ m ih =>
    unfold paLoop
    split
    · rfl
    · rw [ih, List.length_map]

/-- Angles equal up to an integer number of half turns. -/
def SameAxis (pi x y : K) : Prop := ∃ k : ℤ, y = x + k * pi

lemma SameAxis.refl (pi x : K) : SameAxis pi x x := ⟨0, by simp⟩

lemma SameAxis.trans {pi x y z : K} (h : SameAxis pi x y) (h' : SameAxis pi y z) :
    SameAxis pi x z := by
  obtain ⟨k, rfl⟩ := h
  obtain ⟨l, rfl⟩ := h'
  exact ⟨k + l, by push_cast; ring⟩

lemma paStep_same {pi x : K} (hpi : 0 < pi) : SameAxis pi x (paStep pi x) := by
  rw [paStep_eq hpi]
  split
  · exact ⟨-1, by push_cast; ring⟩
  · split
    · exact ⟨1, by push_cast; ring⟩
    · exact SameAxis.refl _ _

lemma paLoop_same {pi : K} (hpi : 0 < pi) (m : Nat) (xs : List K) :
    List.Forall₂ (SameAxis pi) xs (paLoop pi m xs) := by
  induction m generalizing xs with
  | zero => exact List.forall₂_same.2 fun x _ => SameAxis.refl _ _
  | succ m ih =>
    unfold paLoop
    split
    · exact List.forall₂_same.2 fun x _ => SameAxis.refl _ _
    · have h1 : List.Forall₂ (SameAxis pi) xs (xs.map (paStep pi)) := by
        rw [List.forall₂_map_right_iff]
        exact List.forall₂_same.2 fun x _ => paStep_same hpi
      have h2 := ih (xs.map (paStep pi))
      generalize xs.map (paStep pi) = ys at h1 h2
      generalize paLoop pi m ys = zs at h2
      clear ih
      rename_i hcond
      clear hcond
      induction h1 generalizing zs with
      | nil => cases h2; exact .nil
      | cons hxy _ ih' =>
        cases h2 with
        | cons hyz hrest => exact .cons (hxy.trans hyz) (ih' _ hrest)

/-- **C36 (axis).** Without rotation or reversal the output differs from the input (in radians) by
an integer number of half turns, entry by entry, for every number of passes. -/
theorem C36_same_axis {pi : K} (hpi : 0 < pi) (deg : Bool) (m : Nat) (xs : List K) :
    List.Forall₂ (fun x y => SameAxis pi (if deg then x * pi / 180 else x) y) xs
      (convertPa pi deg false false m xs) := by
  unfold convertPa
  simp only [Bool.false_eq_true, if_false]
  have := paLoop_same hpi m (if deg then xs.map fun x => x * pi / 180 else xs)
  cases deg
  · simpa using this
  · simp only [if_true] at this ⊢
    exact (List.forall₂_map_left_iff).1 this

/-- Two passes return an angle of `[-pi/2, pi/2)` to itself, and `(pi/2, 3pi/2]`... stays in
place too unless it meets the fixed point. -/
lemma paStep_twice {pi x : K} (hpi : 0 < pi) (h1 : -(pi / 2) < x) (h2 : x < pi / 2) :
    paStep pi (paStep pi x) = x := by
  have e1 : paStep pi x = x + pi := by
    rw [paStep_eq hpi, if_neg (not_lt.2 h2.le), if_pos h2]
  rw [e1, paStep_eq hpi, if_pos (by linarith)]
  ring

lemma paStep_twice_out {pi x : K} (hpi : 0 < pi) (h1 : pi / 2 < x) (h2 : x < 3 * pi / 2) :
    paStep pi (paStep pi x) = x := by
  have e1 : paStep pi x = x - pi := by rw [paStep_eq hpi, if_pos h1]
  rw [e1, paStep_eq hpi, if_neg (by linarith), if_pos (by linarith)]
  ring

lemma paStep_half {pi : K} (hpi : 0 < pi) : paStep pi (pi / 2) = pi / 2 := by
  rw [paStep_eq hpi]; simp

lemma paStep_neg_half {pi : K} (hpi : 0 < pi) : paStep pi (-(pi / 2)) = pi / 2 := by
  rw [paStep_eq hpi, if_neg (by linarith), if_pos (by linarith)]; ring

/-- The entries of the loop are the iterates of one pass: stopping early happens only at a fixed
point. -/
lemma paLoop_eq {pi : K} (hpi : 0 < pi) (m : Nat) (xs : List K) :
    paLoop pi m xs = xs.map ((paStep pi)^[m]) := by
  induction m generalizing xs with
  | zero => simp [paLoop]
  | succ m ih =>
    unfold paLoop
    split
    · rename_i hall
      symm
      rw [List.map_congr_left (g := id), List.map_id]
      intro x hx
      have hxe : x = pi / 2 := by
        have := List.all_eq_true.1 hall x hx
        simp at this
        exact le_antisymm this.1 this.2
      subst hxe
      exact Function.iterate_fixed (paStep_half hpi) _
    · rw [ih, List.map_map]
      rfl

lemma iter_even {pi x : K} (h : paStep pi (paStep pi x) = x) (k : Nat) :
    (paStep pi)^[2 * k] x = x := by
  rw [Function.iterate_mul]
  exact Function.iterate_fixed h k

/-- **C36 (partial).** With an even number of passes (the default is 4) an angle already in
`[-pi/2, pi/2]` stays in the interval: it is unchanged, except that `-pi/2` becomes `pi/2`. -/
theorem C36_in_range_partial {pi : K} (hpi : 0 < pi) (k : Nat) (hk : 0 < k) (xs : List K)
    (h : ∀ x ∈ xs, -(pi / 2) ≤ x ∧ x ≤ pi / 2) :
    convertPa pi false false false (2 * k) xs
      = xs.map (fun x => if x = -(pi / 2) then pi / 2 else x) ∧
    ∀ y ∈ convertPa pi false false false (2 * k) xs, -(pi / 2) ≤ y ∧ y ≤ pi / 2 := by
  have e : convertPa pi false false false (2 * k) xs
      = xs.map (fun x => if x = -(pi / 2) then pi / 2 else x) := by
    unfold convertPa
    simp only [Bool.false_eq_true, if_false]
    rw [paLoop_eq hpi]
    apply List.map_congr_left
    intro x hx
    obtain ⟨h1, h2⟩ := h x hx
    split
    · rename_i hxe
      subst hxe
      obtain ⟨j, hj⟩ : ∃ j, 2 * k = j + 1 := ⟨2 * k - 1, by omega⟩
      rw [hj, Function.iterate_succ_apply, paStep_neg_half hpi]
      exact Function.iterate_fixed (paStep_half hpi) _
    · rename_i hne
      have h1' : -(pi / 2) < x := lt_of_le_of_ne h1 (Ne.symm hne)
      rcases h2.lt_or_eq with h2' | rfl
      · exact iter_even (paStep_twice hpi h1' h2') k
      · exact Function.iterate_fixed (paStep_half hpi) _
  refine ⟨e, ?_⟩
  rw [e]
  intro y hy
  obtain ⟨x, hx, rfl⟩ := List.mem_map.1 hy
  split
  · constructor <;> linarith
  · exact h x hx

/-- **C36 is refuted**: an angle strictly between `pi/2` and `3 pi/2` comes back *unchanged*, so
outside the interval, for every even number of passes. -/
theorem C36_refuted {pi : K} (hpi : 0 < pi) (k : Nat) (xs : List K)
    (h : ∀ x ∈ xs, pi / 2 < x ∧ x < 3 * pi / 2) :
    convertPa pi false false false (2 * k) xs = xs := by
  unfold convertPa
  simp only [Bool.false_eq_true, if_false]
  rw [paLoop_eq hpi]
  conv_rhs => rw [← List.map_id xs]
  apply List.map_congr_left
  intro x hx
  exact iter_even (paStep_twice_out hpi (h x hx).1 (h x hx).2) k

/-- And with an odd number of passes an angle strictly inside is thrown out of the interval. -/
theorem C36_refuted_odd {pi : K} (hpi : 0 < pi) (k : Nat) (x : K)
    (h1 : -(pi / 2) < x) (h2 : x < pi / 2) :
    convertPa pi false false false (2 * k + 1) [x] = [x + pi] ∧ pi / 2 < x + pi := by
  refine ⟨?_, by linarith⟩
  unfold convertPa
  simp only [Bool.false_eq_true, if_false]
  rw [paLoop_eq hpi, List.map_singleton, Function.iterate_succ_apply',
    iter_even (paStep_twice hpi h1 h2), paStep_eq hpi, if_neg (not_lt.2 h2.le), if_pos h2]

/-- Non-vacuity of both: with 22/7 for pi, 0.5 is kept and 2 is not normalised. -/
example : convertPa (22/7 : ℚ) false false false 4 [1/2, -(11/7), 2] = [1/2, 11/7, 2] := by
  decide +kernel

/-- **C36 (rotation).** Rotation by a right angle keeps `[-pi/2, pi/2]` and moves the axis by
exactly a right angle (up to half turns). -/
theorem C36_rotate {pi x : K} :
    SameAxis pi (x + pi / 2) (rotateAngle pi x) ∧
    (-pi ≤ x → x ≤ pi → -(pi / 2) ≤ rotateAngle pi x ∧ rotateAngle pi x ≤ pi / 2) := by
  unfold rotateAngle
  by_cases h : 0 < x
  · rw [if_pos h]
    exact ⟨⟨-1, by push_cast; ring⟩, fun _ _ => ⟨by linarith, by linarith⟩⟩
  · rw [if_neg h]
    exact ⟨⟨0, by push_cast; ring⟩, fun _ _ => ⟨by linarith, by linarith [not_lt.1 h]⟩⟩

/-- **C36 (options).** The options act after the normalisation: rotation on each angle, then a
change of sign. -/
theorem C36_options (pi : K) (deg : Bool) (m : Nat) (xs : List K) :
    convertPa pi deg true false m xs = (convertPa pi deg false false m xs).map (rotateAngle pi) ∧
    convertPa pi deg false true m xs = (convertPa pi deg false false m xs).map (fun x => -x) ∧
    convertPa pi deg true true m xs
      = (convertPa pi deg true false m xs).map (fun x => -x) := by
  have e : (fun x : K => x * (-1)) = fun x => -x := by funext x; ring
  simp only [convertPa, Bool.false_eq_true, if_false, if_true, e]
  exact ⟨trivial, trivial, trivial⟩

/-! ## C37 rectified catalogs -/

lemma clip_mem {x lo hi : K} (h : lo ≤ hi) : lo ≤ clip x lo hi ∧ clip x lo hi ≤ hi :=
  ⟨le_min (le_max_right _ _) h, min_le_right _ _⟩

lemma clip_id {x lo hi : K} (h1 : lo ≤ x) (h2 : x ≤ hi) : clip x lo hi = x := by
  unfold clip; rw [max_eq_left h1, min_eq_left h2]

/-- Clipping moves a value to the nearest point of the range. -/
lemma clip_nearest {x lo hi y : K} (h1 : lo ≤ y) (h2 : y ≤ hi) :
    |clip x lo hi - x| ≤ |y - x| := by
  unfold clip
  rcases le_total x lo with hx | hx
  · rw [max_eq_right hx, min_eq_left (h1.trans h2), abs_of_nonneg (by linarith),
      abs_of_nonneg (by linarith)]
    linarith
  · rw [max_eq_left hx]
    rcases le_total x hi with hx' | hx'
    · rw [min_eq_left hx']; simp
    · rw [min_eq_right hx', abs_of_nonpos (by linarith), abs_of_nonpos (by linarith)]
      linarith

/-- The four ranges of an option set are non-empty. -/
def RectOpts.Proper (o : RectOpts K) : Prop :=
  o.rhalf.1 ≤ o.rhalf.2 ∧ o.q.1 ≤ o.q.2 ∧ o.sersic.1 ≤ o.sersic.2 ∧ o.pa.1 ≤ o.pa.2

/-- A row whose shape columns are within the ranges. -/
def InRange (o : RectOpts K) (r : String → K) : Prop :=
  (o.rhalf.1 ≤ r "rhalf" ∧ r "rhalf" ≤ o.rhalf.2) ∧ (o.q.1 ≤ r "q" ∧ r "q" ≤ o.q.2) ∧
  (o.sersic.1 ≤ r "sersic" ∧ r "sersic" ≤ o.sersic.2) ∧ (o.pa.1 ≤ r "pa" ∧ r "pa" ≤ o.pa.2)

lemma rectify_ok {pi : K} {o : RectOpts K} {bands : List String} {c : InCat K}
    {rows : List (String → K)} (h : rectify pi o bands c = .ok rows) :
    rows = c.rows.mapIdx (fun i r => rectifyRow pi o (copyRow c bands i r)) ∧
    (∀ b ∈ bands, b ∈ c.cols) ∧ (∀ s ∈ shapeNames, s ∈ c.cols) ∧ (outCols bands).Nodup ∧
    (∀ n ∈ c.cols, n ∈ outCols bands → ∀ r ∈ c.rows, (r n).isSome) := by
  unfold rectify at h
  by_cases h1 : bands.all (fun b => decide (b ∈ c.cols))
  · rw [if_pos h1] at h
    by_cases h2 : (outCols bands).Nodup
    · rw [if_neg (not_not.2 h2)] at h
      by_cases h3 : shapeNames.all (fun b => decide (b ∈ c.cols))
      · rw [if_pos h3] at h
        by_cases h4 : c.cols.all
            (fun n => !decide (n ∈ outCols bands) || c.rows.all fun r => (r n).isSome)
        · rw [if_pos h4] at h
          cases h
          refine ⟨rfl, ?_, ?_, h2, ?_⟩
          · intro b hb; simpa using List.all_eq_true.1 h1 b hb
          · intro b hb; simpa using List.all_eq_true.1 h3 b hb
          · intro n hn ho r hr
            have := List.all_eq_true.1 h4 n hn
            simp only [ho, decide_true, Bool.not_true, Bool.false_or] at this
            exact List.all_eq_true.1 this r hr
        · rw [if_neg h4] at h; cases h
      · rw [if_neg h3] at h; cases h
    · rw [if_pos h2] at h; cases h
  · rw [if_neg h1] at h; cases h

lemma rectify_row {pi : K} {o : RectOpts K} {bands : List String} {c : InCat K}
    {rows : List (String → K)} (h : rectify pi o bands c = .ok rows) {i : Nat} {r : String → K}
    (hr : rows[i]? = some r) :
    ∃ r0, c.rows[i]? = some r0 ∧ r = rectifyRow pi o (copyRow c bands i r0) := by
  obtain ⟨rfl, -⟩ := rectify_ok h
  rw [List.getElem?_mapIdx] at hr
  obtain ⟨r0, h0, rfl⟩ := Option.map_eq_some_iff.1 hr
  exact ⟨r0, h0, rfl⟩

/-- **C37 (ranges).** Every output row has its shapes in the requested ranges (the position angle
when it is neither rotated nor reversed). -/
theorem C37_in_range {pi : K} {o : RectOpts K} (ho : o.Proper) {bands : List String}
    {c : InCat K} {rows : List (String → K)} (h : rectify pi o bands c = .ok rows) :
    ∀ r ∈ rows, (o.rhalf.1 ≤ r "rhalf" ∧ r "rhalf" ≤ o.rhalf.2) ∧
      (o.q.1 ≤ r "q" ∧ r "q" ≤ o.q.2) ∧ (o.sersic.1 ≤ r "sersic" ∧ r "sersic" ≤ o.sersic.2) ∧
      (o.rotate = false → o.reverse = false → o.pa.1 ≤ r "pa" ∧ r "pa" ≤ o.pa.2) := by
  intro r hr
  obtain ⟨i, hi⟩ := List.mem_iff_getElem?.1 hr
  obtain ⟨r0, -, rfl⟩ := rectify_row h hi
  refine ⟨clip_mem ho.1, ?_, ?_, ?_⟩
  · simp only [rectifyRow, String.reduceEq, if_false, if_true]; exact clip_mem ho.2.1
  · simp only [rectifyRow, String.reduceEq, if_false, if_true]; exact clip_mem ho.2.2.1
  · intro h1 h2
    simp only [rectifyRow, String.reduceEq, if_false, if_true, h1, h2, Bool.false_eq_true]
    exact clip_mem ho.2.2.2

/-- **C37 (rotation).** With rotation and a range within `[-pi, pi]` (the default is `[-2, 2]`),
the position angle ends in `[-pi/2, pi/2]`, reversed or not. -/
theorem C37_rotated {pi : K} {o : RectOpts K} (ho : o.Proper)
    (hlo : -pi ≤ o.pa.1) (hhi : o.pa.2 ≤ pi) (hrot : o.rotate = true) {bands : List String}
    {c : InCat K} {rows : List (String → K)} (h : rectify pi o bands c = .ok rows) :
    ∀ r ∈ rows, -(pi / 2) ≤ r "pa" ∧ r "pa" ≤ pi / 2 := by
  intro r hr
  obtain ⟨i, hi⟩ := List.mem_iff_getElem?.1 hr
  obtain ⟨r0, -, rfl⟩ := rectify_row h hi
  have hc := clip_mem (x := copyRow c bands i r0 "pa") ho.2.2.2
  have := (C36_rotate (x := clip (copyRow c bands i r0 "pa") o.pa.1 o.pa.2)).2
    (hlo.trans hc.1) (hc.2.trans hhi)
  simp only [rectifyRow, String.reduceEq, if_false, if_true, hrot]
  split
  · constructor <;> linarith [this.1, this.2]
  · exact this

/-- **C37 (unchanged columns).** The output has one row per input row, in order.  Positions and
fluxes, and any of the output's other columns present in the input, are copied; columns absent
from the input are zero, except that the source index is then the row number.  A shape value that
is already in its range is kept, and any other is moved to the nearest point of the range. -/
theorem C37_copies {pi : K} {o : RectOpts K} {bands : List String} {c : InCat K}
    {rows : List (String → K)} (h : rectify pi o bands c = .ok rows) :
    rows.length = c.rows.length ∧
    ∀ (i : Nat) (r0 : String → Option K) (r : String → K), c.rows[i]? = some r0 →
      rows[i]? = some r →
      (∀ n, n ∈ bands ∨ n = "ra" ∨ n = "dec" ∨ (n ∈ tagNames ∧ n ∈ c.cols) →
        n ∉ ["rhalf", "q", "sersic", "pa"] → r0 n = some (r n)) ∧
      ("source_index" ∉ c.cols → r "source_index" = (i : K)) ∧
      (∀ n, n ∈ tagNames → n ∉ c.cols → n ≠ "source_index" → r n = 0) ∧
      (∀ n rg, (n, rg) ∈ [("rhalf", o.rhalf), ("q", o.q), ("sersic", o.sersic)] ∨
          (o.rotate = false ∧ o.reverse = false ∧ n = "pa" ∧ rg = o.pa) →
        ∃ v, r0 n = some v ∧ (rg.1 ≤ v → v ≤ rg.2 → r n = v) ∧
          ∀ y, rg.1 ≤ y → y ≤ rg.2 → |r n - v| ≤ |y - v|) := by
  have hok := rectify_ok h
  refine ⟨by rw [hok.1]; simp, ?_⟩
  intro i r0 r h0 hr
  obtain ⟨r0', h0', rfl⟩ := rectify_row h hr
  rw [h0] at h0'
  cases h0'
  have hm := List.mem_of_getElem? h0
  obtain ⟨-, hb, hsn, hnd, hfin⟩ := hok
  have hcopy : ∀ n, n ∈ c.cols → n ∈ outCols bands → r0 n = some (copyRow c bands i r0 n) := by
    intro n h1 h2
    obtain ⟨v, hv⟩ := Option.isSome_iff_exists.1 (hfin n h1 h2 r0 hm)
    simp [copyRow, h1, h2, hv]
  have hother : ∀ n, n ∉ ["rhalf", "q", "sersic", "pa"] →
      rectifyRow pi o (copyRow c bands i r0) n = copyRow c bands i r0 n := by
    intro n hn
    simp only [List.mem_cons, List.not_mem_nil, or_false, not_or] at hn
    simp [rectifyRow, hn]
  refine ⟨?_, ?_, ?_, ?_⟩
  · intro n hn hns
    rw [hother n hns]
    rcases hn with hn | rfl | rfl | ⟨hn, hn'⟩
    · exact hcopy n (hb n hn) (by simp [outCols, hn])
    · exact hcopy _ (hsn _ (by decide)) (by simp [outCols, shapeNames])
    · exact hcopy _ (hsn _ (by decide)) (by simp [outCols, shapeNames])
    · exact hcopy n hn' (by simp [outCols, hn])
  · intro hn
    rw [hother _ (by decide)]
    simp [copyRow, hn]
  · intro n ht hn hns
    have hnot : n ∉ ["rhalf", "q", "sersic", "pa"] := by
      revert ht; simp only [tagNames, List.mem_cons, List.not_mem_nil, or_false]
      rintro (rfl | rfl | rfl | rfl | rfl | rfl | rfl) <;> decide
    rw [hother _ hnot]
    simp [copyRow, hn, hns]
  · intro n rg hn
    have hnsh : n ∈ shapeNames := by
      rcases hn with hn | ⟨-, -, rfl, -⟩
      · simp only [List.mem_cons, List.not_mem_nil, or_false, Prod.mk.injEq] at hn
        rcases hn with ⟨rfl, -⟩ | ⟨rfl, -⟩ | ⟨rfl, -⟩ <;> decide
      · decide
    refine ⟨copyRow c bands i r0 n, hcopy n (hsn n hnsh) (by simp [outCols, hnsh]), ?_⟩
    have he : rectifyRow pi o (copyRow c bands i r0) n = clip (copyRow c bands i r0 n) rg.1 rg.2 := by
      rcases hn with hn | ⟨h1, h2, rfl, rfl⟩
      · simp only [List.mem_cons, List.not_mem_nil, or_false, Prod.mk.injEq] at hn
        rcases hn with ⟨rfl, rfl⟩ | ⟨rfl, rfl⟩ | ⟨rfl, rfl⟩ <;> simp [rectifyRow]
      · simp [rectifyRow, h1, h2]
    rw [he]
    exact ⟨fun h1 h2 => clip_id h1 h2, fun y h1 h2 => clip_nearest h1 h2⟩

/-- An output catalog as an input catalog. -/
def asInput (bands : List String) (rows : List (String → K)) : InCat K :=
  { cols := outCols bands, rows := rows.map fun r n => some (r n) }

/-- **C37 (idempotence).** Without rotation or reversal, rectifying a rectified catalog succeeds
and changes no column of it. -/
theorem C37_idempotent {pi : K} {o : RectOpts K} (ho : o.Proper) (hrot : o.rotate = false)
    (hrev : o.reverse = false) {bands : List String} {c : InCat K} {rows : List (String → K)}
    (h : rectify pi o bands c = .ok rows) :
    ∃ rows', rectify pi o bands (asInput bands rows) = .ok rows' ∧ rows'.length = rows.length ∧
      ∀ (i : Nat) (r r' : String → K), rows[i]? = some r → rows'[i]? = some r' →
        ∀ n ∈ outCols bands, r' n = r n := by
  have hr := C37_in_range ho h
  obtain ⟨-, -, -, hnd, -⟩ := rectify_ok h
  have hex : ∃ rows', rectify pi o bands (asInput bands rows) = .ok rows' := by
    refine ⟨(asInput bands rows).rows.mapIdx
      fun i r => rectifyRow pi o (copyRow (asInput bands rows) bands i r), ?_⟩
    unfold rectify
    rw [if_pos, if_neg (not_not.2 hnd), if_pos, if_pos]
    · simp [asInput]
    · simp only [asInput, List.all_eq_true, decide_eq_true_eq]
      intro b hb; simp [outCols, hb]
    · simp only [asInput, List.all_eq_true, decide_eq_true_eq]
      intro b hb; simp [outCols, hb]
  obtain ⟨rows', h'⟩ := hex
  obtain ⟨hlen, hc⟩ := C37_copies h'
  refine ⟨rows', h', by simpa [asInput] using hlen, ?_⟩
  intro i r r' hri hri' n hn
  have h0 : (asInput bands rows).rows[i]? = some (fun n => some (r n)) := by
    simp [asInput, hri]
  obtain ⟨c1, c2, c3, c4⟩ := hc i _ r' h0 hri'
  have hrr := hr r (List.mem_of_getElem? hri)
  by_cases hs : n ∈ ["rhalf", "q", "sersic", "pa"]
  · have hk : ∀ rg : K × K, ((n, rg) ∈ [("rhalf", o.rhalf), ("q", o.q), ("sersic", o.sersic)] ∨
          (o.rotate = false ∧ o.reverse = false ∧ n = "pa" ∧ rg = o.pa)) →
          rg.1 ≤ r n → r n ≤ rg.2 → r' n = r n := by
      intro rg hrg h1 h2
      obtain ⟨v, hv, hv', -⟩ := c4 n rg hrg
      simp at hv
      subst hv
      exact hv' h1 h2
    simp only [List.mem_cons, List.not_mem_nil, or_false] at hs
    rcases hs with rfl | rfl | rfl | rfl
    · exact hk o.rhalf (by simp) hrr.1.1 hrr.1.2
    · exact hk o.q (by simp) hrr.2.1.1 hrr.2.1.2
    · exact hk o.sersic (by simp) hrr.2.2.1.1 hrr.2.2.1.2
    · exact hk o.pa (Or.inr ⟨hrot, hrev, rfl, rfl⟩) (hrr.2.2.2 hrot hrev).1 (hrr.2.2.2 hrot hrev).2
  · have : some (r n) = some (r' n) := by
      refine c1 n ?_ hs
      simp only [outCols, List.mem_append] at hn
      rcases hn with (hn | hn) | hn
      · exact Or.inr (Or.inr (Or.inr ⟨hn, by simp [asInput, outCols, hn]⟩))
      · simp only [shapeNames, List.mem_cons, List.not_mem_nil, or_false] at hn hs
        rcases hn with rfl | rfl | rfl | rfl | rfl | rfl
        · simp
        · simp
        all_goals exact absurd (by simp) hs
      · exact Or.inl hn
    exact (Option.some.inj this).symm

/-- **C37 (failures).** A missing band or shape column, or a non-finite entry in a copied column,
stops the rectification with an assertion. -/
theorem C37_fails {pi : K} {o : RectOpts K} {bands : List String} {c : InCat K}
    (hnd : (outCols bands).Nodup)
    (h : (∃ b ∈ bands, b ∉ c.cols) ∨ (∃ s ∈ shapeNames, s ∉ c.cols) ∨
      (∃ n ∈ c.cols, n ∈ outCols bands ∧ ∃ r ∈ c.rows, r n = none)) :
    rectify pi o bands c = .error .assertionError := by
  cases hr : rectify pi o bands c with
  | ok rows =>
    obtain ⟨-, h1, h2, -, h4⟩ := rectify_ok hr
    exfalso
    rcases h with ⟨b, hb, hn⟩ | ⟨b, hb, hn⟩ | ⟨n, hn, ho, r, hrr, h0⟩
    · exact hn (h1 b hb)
    · exact hn (h2 b hb)
    · have := h4 n hn ho r hrr
      rw [h0] at this; simp at this
  | error e =>
    unfold rectify at hr
    rw [if_neg (not_not.2 hnd)] at hr
    split at hr
    · split at hr
      · split at hr
        · cases hr
        · cases hr; rfl
      · cases hr; rfl
    · cases hr; rfl

end Ordered

/-- Non-vacuity: a two-source catalog with an out-of-range galaxy; the clipped values, the copied
flux and the running number are visible. -/
def exIn : InCat ℚ :=
  { cols := ["id", "ra", "dec", "q", "pa", "sersic", "rhalf", "F200W", "extra"],
    rows := [fun n => if n = "extra" then none else if n = "rhalf" then some (1/10) else
        if n = "sersic" then some 2 else if n = "q" then some (1/2) else some 1,
      fun n => if n = "extra" then none else if n = "F200W" then some 7 else some 9] }

/-- The ranges of rectification of the example (the defaults of `rectify_catalog`, superscene.py:767-769). -/
def exRect : RectOpts ℚ :=
  { rhalf := (51/1000, 29/100), q := (2/10, 99/100), sersic := (101/100, 499/100), pa := (-2, 2),
    rotate := false, reverse := false }

example : exRect.Proper := by norm_num [RectOpts.Proper, exRect]

example : (rectify (22/7) exRect ["F200W"] exIn).toOption.map
    (fun rows => rows.map fun r => ["source_index", "id", "q", "pa", "rhalf", "F200W", "roi"].map r)
    = some [[0, 1, 1/2, 1, 1/10, 1, 0], [1, 9, 99/100, 2, 29/100, 7, 0]] := by decide +kernel

end Forcepho.Bounds
