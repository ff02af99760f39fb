import Verif.Bounds.Props
import Verif.Postprocess.Postop
import Verif.Transform.Props
import Mathlib.Analysis.Real.Pi.Bounds

/-! # From the catalog of a run to its starting point: rectified sources and their bounds

`do_parent` (dispatcher.py:174-181) rectifies the input catalog and hands it to `SuperScene`, whose
`ingest` (superscene.py:115-133) makes the bounds.  -/

set_option autoImplicit false

namespace Forcepho.Bounds

open Forcepho.Transform (Bounded)

/-- The default arguments of `make_bounds` (superscene.py:805-808). -/
noncomputable def defaultBounds : Options where
  nSig := 5
  dpos := none
  nPix := 2
  pixscale := 3 / 100
  q := (4 / 10, 1)
  pa := (-(6 / 10) * Real.pi, 6 / 10 * Real.pi)
  rhalf := (3 / 100, 3 / 10)
  sersic := (1, 5)

/-- The bounds a configuration file without limits of its own asks for (config.py:71-79, collected by
`rectify_config`, config.py:184-192, 263). -/
noncomputable def configBounds : Options where
  nSig := 5
  dpos := some (6 / 100, 6 / 100)
  nPix := 2
  pixscale := 3 / 100
  q := (4 / 10, 1)
  pa := (-2, 2)
  rhalf := (3 / 100, 1)
  sersic := (8 / 10, 6)

/-- The catalog and bounds catalog of a new run: `rectify_catalog` with its default ranges
(dispatcher.py:174), then `make_bounds` on the whole catalog (superscene.py:115-126). -/
noncomputable def startRun (o : Options) (bands : List String) (c : InCat ℝ) :
    Except Err (List Row × List BRow) :=
  match rectify Real.pi Forcepho.Postprocess.Postop.defaultOpts bands c with
  | .error e => .error e
  | .ok rows =>
    match makeBounds o bands rows none with
    | .error e => .error e
    | .ok b => .ok (rows, b)

/-- `SuperScene.check_bounds` (superscene.py:136-137) on the result. -/
noncomputable def startCheck (bands : List String) (s : List Row × List BRow) : Except Err Unit :=
  checkBounds (bands ++ shapeNames) s.1 (s.2.map finite)

/-- What the parent process does with the limits of its configuration (dispatcher.py:174-181): it passes
`bounds_kwargs={}`. -/
noncomputable def parentRun (_configured : Options) (bands : List String) (c : InCat ℝ) :
    Except Err (List Row × List BRow) :=
  startRun defaultBounds bands c

/-! ## What a run starts from -/

lemma startRun_ok {o : Options} {bands : List String} {c : InCat ℝ} {rows : List Row} {b : List BRow}
    (h : startRun o bands c = .ok (rows, b)) :
    rectify Real.pi Forcepho.Postprocess.Postop.defaultOpts bands c = .ok rows ∧
    makeBounds o bands rows none = .ok b := by
  unfold startRun at h
  cases hr : rectify Real.pi Forcepho.Postprocess.Postop.defaultOpts bands c with
  | error e => rw [hr] at h; cases h
  | ok rs =>
    rw [hr] at h
    cases hm : makeBounds o bands rs none with
    | error e => simp only [hm] at h; cases h
    | ok bb =>
      simp only [hm] at h
      cases h
      exact ⟨rfl, hm⟩

lemma clip_gt {x lo hi t : ℝ} (hlo : lo ≤ t) (hhi : t < hi) : t < clip x lo hi ↔ t < x := by
  unfold clip
  rw [lt_min_iff, lt_max_iff]
  constructor
  · rintro ⟨h | h, -⟩
    · exact h
    · exact absurd h (not_lt.mpr hlo)
  · exact fun h => ⟨Or.inl h, hhi⟩

lemma clip_lt {x lo hi t : ℝ} (hlo : lo < t) (hhi : t ≤ hi) : clip x lo hi < t ↔ x < t := by
  unfold clip
  rw [min_lt_iff, max_lt_iff]
  constructor
  · rintro (h | h)
    · exact h.1
    · exact absurd h (not_lt.mpr hhi)
  · exact fun h => Or.inl ⟨h, hlo⟩

lemma start_shapes {bands : List String} {c : InCat ℝ} {rows : List Row}
    (h : rectify Real.pi Forcepho.Postprocess.Postop.defaultOpts bands c = .ok rows) {i : Nat}
    {r0 : String → Option ℝ} {r : Row} (h0 : c.rows[i]? = some r0) (hr : rows[i]? = some r) :
    ∃ q pa : ℝ, r0 "q" = some q ∧ r0 "pa" = some pa ∧ r "q" = clip q (2 / 10) (99 / 100) ∧
      r "pa" = clip pa (-2) 2 := by
  obtain ⟨r0', h0', rfl⟩ := rectify_row h hr
  rw [h0] at h0'
  cases h0'
  obtain ⟨-, -, hsn, -, hfin⟩ := rectify_ok h
  have hm := List.mem_of_getElem? h0
  obtain ⟨q, hq⟩ := Option.isSome_iff_exists.1 (hfin "q" (hsn _ (by decide)) (by simp [outCols, shapeNames]) r0 hm)
  obtain ⟨pa, hp⟩ := Option.isSome_iff_exists.1
    (hfin "pa" (hsn _ (by decide)) (by simp [outCols, shapeNames]) r0 hm)
  have k1 : "q" ∈ c.cols ∧ "q" ∈ outCols bands := ⟨hsn _ (by decide), by simp [outCols, shapeNames]⟩
  have k2 : "pa" ∈ c.cols ∧ "pa" ∈ outCols bands := ⟨hsn _ (by decide), by simp [outCols, shapeNames]⟩
  refine ⟨q, pa, hq, hp, ?_, ?_⟩
  · simp only [rectifyRow, String.reduceEq, if_false, if_true, copyRow, if_pos k1, hq, Option.getD_some,
      Forcepho.Postprocess.Postop.defaultOpts]
  · simp only [rectifyRow, String.reduceEq, if_false, if_true, copyRow, if_pos k2, hp, Option.getD_some,
      Forcepho.Postprocess.Postop.defaultOpts, Bool.false_eq_true]

/-- The catalogs for which bounds can be made: no source at a pole, no flux exactly zero. -/
def Ordinary (bands : List String) (c : InCat ℝ) : Prop :=
  ∀ r ∈ c.rows, (∀ d, r "dec" = some d → |d| < 90) ∧ ∀ b ∈ bands, ∀ f, r b = some f → f ≠ 0

/-- The general form: for bounds that leave room for radius and Sersic index, the rectified catalog is within
its own bounds exactly when the axis ratio and the angle of every rectified source are. -/
lemma start_iff {o : Options} {bands : List String} {c : InCat ℝ} {rows : List Row} {b : List BRow}
    (h : startRun o bands c = .ok (rows, b)) (hord : Ordinary bands c) (hsig : 0 < o.nSig) {d : ℝ × ℝ}
    (hd : o.dpos = some d ∨ (o.dpos = none ∧ d = (o.nPix * o.pixscale, o.nPix * o.pixscale)))
    (hd1 : 0 < d.1) (hd2 : 0 < d.2)
    (hs : o.sersic.1 < 101 / 100 ∧ 499 / 100 < o.sersic.2)
    (hrh : o.rhalf.1 < 51 / 1000 ∧ 29 / 100 < o.rhalf.2) :
    startCheck bands (rows, b) = .ok () ↔
      ∀ r ∈ rows, (o.q.1 < r "q" ∧ r "q" < o.q.2) ∧ o.pa.1 < r "pa" ∧ r "pa" < o.pa.2 := by
  obtain ⟨h1, h2⟩ := startRun_ok h
  have hrange := C37_in_range (o := Forcepho.Postprocess.Postop.defaultOpts)
    (by refine ⟨?_, ?_, ?_, ?_⟩ <;> norm_num [Forcepho.Postprocess.Postop.defaultOpts]) h1
  have hcop := (C37_copies h1).2
  obtain ⟨hrows, hbc, hsn, hnd, -⟩ := rectify_ok h1
  have back : ∀ (i : Nat) (r : Row), rows[i]? = some r → ∃ r0, c.rows[i]? = some r0 ∧
      (∀ n, n ∈ bands ∨ n = "ra" ∨ n = "dec" → r0 n = some (r n)) := by
    intro i r hr
    obtain ⟨r0, h0, -⟩ := rectify_row h1 hr
    refine ⟨r0, h0, ?_⟩
    intro n hn
    apply (hcop i r0 r h0 hr).1 n (by tauto)
    intro hmem
    rcases hn with hn | rfl | rfl
    · have hdj := (List.nodup_append.1 hnd).2.2
      exact hdj n (by
        simp only [List.mem_append]
        right
        simp only [List.mem_cons, List.not_mem_nil, or_false] at hmem
        rcases hmem with rfl | rfl | rfl | rfl <;> decide) n hn rfl
    · revert hmem; decide
    · revert hmem; decide
  constructor
  · intro hc r hr
    obtain ⟨i, hi⟩ := List.mem_iff_getElem?.1 hr
    have hlt : i < b.length := by
      rw [(makeBounds_rows h2).1]; exact (List.getElem?_eq_some_iff.1 hi).1
    have hbr : b[i]? = some b[i] := List.getElem?_eq_getElem hlt
    have hin := ((C34_check _ _ _).1.1 hc) i r (finite b[i]) hi (by rw [List.getElem?_map, hbr]; rfl)
    obtain ⟨e1, e2, -, -, -⟩ := (C34_shape h2).2 i r b[i] hi hbr
    have q1 := hin "q" (by simp [shapeNames])
    have q2 := hin "pa" (by simp [shapeNames])
    simp only [finite, e1, e2, Option.getD_some] at q1 q2
    exact ⟨q1, q2⟩
  · intro hall
    refine C34_made_pass h2 hsig hd hd1 hd2 ?_ (fun r hr => (hall r hr).1) (fun r hr => (hall r hr).2) ?_ ?_
      (by intro us hu; cases hu) ?_
    · intro r hr
      obtain ⟨i, hi⟩ := List.mem_iff_getElem?.1 hr
      obtain ⟨r0, h0, hb0⟩ := back i r hi
      exact (hord r0 (List.mem_of_getElem? h0)).1 _ (hb0 "dec" (by simp))
    · intro r hr
      obtain ⟨-, -, h3, -⟩ := hrange r hr
      norm_num [Forcepho.Postprocess.Postop.defaultOpts] at h3
      constructor <;> linarith [hs.1, hs.2, h3.1, h3.2]
    · intro r hr
      obtain ⟨h3, -⟩ := hrange r hr
      norm_num [Forcepho.Postprocess.Postop.defaultOpts] at h3
      constructor <;> linarith [hrh.1, hrh.2, h3.1, h3.2]
    · intro i r hi cc hcc
      obtain ⟨r0, h0, hb0⟩ := back i r hi
      exact Or.inl ((hord r0 (List.mem_of_getElem? h0)).2 cc hcc _ (hb0 cc (Or.inl hcc)))

lemma rows_iff {bands : List String} {c : InCat ℝ} {rows : List Row}
    (h1 : rectify Real.pi Forcepho.Postprocess.Postop.defaultOpts bands c = .ok rows) {q1 q2 p1 p2 : ℝ}
    (hq1 : 2 / 10 ≤ q1 ∧ q1 < 99 / 100) (hq2 : 99 / 100 < q2) (hp1 : -2 ≤ p1 ∧ p1 < 2)
    (hp2 : -2 < p2 ∧ p2 ≤ 2) :
    (∀ r ∈ rows, (q1 < r "q" ∧ r "q" < q2) ∧ p1 < r "pa" ∧ r "pa" < p2) ↔
      ∀ r ∈ c.rows, (∃ q, r "q" = some q ∧ q1 < q) ∧ ∃ pa, r "pa" = some pa ∧ p1 < pa ∧ pa < p2 := by
  have hlen := (C37_copies h1).1
  constructor
  · intro h r0 hr0
    obtain ⟨i, h0⟩ := List.mem_iff_getElem?.1 hr0
    have hlt : i < rows.length := by rw [hlen]; exact (List.getElem?_eq_some_iff.1 h0).1
    have hi : rows[i]? = some rows[i] := List.getElem?_eq_getElem hlt
    obtain ⟨q, pa, k1, k2, k3, k4⟩ := start_shapes h1 h0 hi
    obtain ⟨⟨a1, -⟩, a2, a3⟩ := h _ (List.mem_of_getElem? hi)
    rw [k3, clip_gt hq1.1 hq1.2] at a1
    rw [k4, clip_gt hp1.1 hp1.2] at a2
    rw [k4, clip_lt hp2.1 hp2.2] at a3
    exact ⟨⟨q, k1, a1⟩, pa, k2, a2, a3⟩
  · intro h r hr
    obtain ⟨i, hi⟩ := List.mem_iff_getElem?.1 hr
    obtain ⟨r0, h0, -⟩ := rectify_row h1 hi
    obtain ⟨q, pa, k1, k2, k3, k4⟩ := start_shapes h1 h0 hi
    obtain ⟨⟨q', e1, a1⟩, pa', e2, a2, a3⟩ := h r0 (List.mem_of_getElem? h0)
    rw [k1] at e1
    rw [k2] at e2
    cases e1
    cases e2
    rw [k3, k4, clip_gt hq1.1 hq1.2, clip_gt hp1.1 hp1.2, clip_lt hp2.1 hp2.2]
    refine ⟨⟨a1, ?_⟩, a2, a3⟩
    exact lt_of_le_of_lt (min_le_right _ _) hq2

/-- C125, partial: what holds of a run started by the parent process.  The rectified catalog lies inside the
bounds made of it exactly when, in the input, every source has a square root of the axis ratio above 0.4 and an
angle strictly within ±0.6 π — although rectifying is meant to ensure it, and accepts 0.2 and ±2. -/
theorem C125_default_partial {cfg : Options} {bands : List String} {c : InCat ℝ} {rows : List Row} {b : List BRow}
    (h : parentRun cfg bands c = .ok (rows, b)) (hord : Ordinary bands c) :
    checkBounds (bands ++ ["ra", "dec", "q", "pa", "sersic", "rhalf"]) rows (b.map finite) = .ok () ↔
      ∀ r ∈ c.rows, (∃ q, r "q" = some q ∧ 4 / 10 < q) ∧
        ∃ pa, r "pa" = some pa ∧ -(6 / 10) * Real.pi < pa ∧ pa < 6 / 10 * Real.pi := by
  have hpi := Real.pi_gt_three
  have hpi' := Real.pi_lt_d2
  have key := start_iff (o := defaultBounds) (d := (6 / 100, 6 / 100)) h hord (by norm_num [defaultBounds])
    (Or.inr ⟨rfl, by norm_num [defaultBounds]⟩) (by norm_num) (by norm_num) (by norm_num [defaultBounds])
    (by norm_num [defaultBounds])
  refine Iff.trans key ?_
  exact rows_iff (startRun_ok h).1 (by norm_num [defaultBounds]) (by norm_num [defaultBounds])
    ⟨by simp only [defaultBounds]; linarith, by simp only [defaultBounds]; linarith⟩
    ⟨by simp only [defaultBounds]; linarith, by simp only [defaultBounds]; linarith⟩

/-- C125, partial: the same with the bounds of a configuration without limits of its own, for a scene made with
them: axis ratios above 0.4 and angles strictly within ±2. -/
theorem C125_config_partial {bands : List String} {c : InCat ℝ} {rows : List Row} {b : List BRow}
    (h : startRun configBounds bands c = .ok (rows, b)) (hord : Ordinary bands c) :
    checkBounds (bands ++ ["ra", "dec", "q", "pa", "sersic", "rhalf"]) rows (b.map finite) = .ok () ↔
      ∀ r ∈ c.rows, (∃ q, r "q" = some q ∧ 4 / 10 < q) ∧ ∃ pa, r "pa" = some pa ∧ -2 < pa ∧ pa < 2 := by
  have key := start_iff (o := configBounds) (d := (6 / 100, 6 / 100)) h hord (by norm_num [configBounds])
    (Or.inl rfl) (by norm_num) (by norm_num) (by norm_num [configBounds])
    (by norm_num [configBounds])
  refine Iff.trans key ?_
  exact rows_iff (startRun_ok h).1 (by norm_num [configBounds]) (by norm_num [configBounds])
    (by norm_num [configBounds]) (by norm_num [configBounds])

/-- C125: for limits strictly wider than the ranges of rectification the promise is kept for every catalog. -/
theorem C125_wide {o : Options} {bands : List String} {c : InCat ℝ} {rows : List Row} {b : List BRow}
    (h : startRun o bands c = .ok (rows, b)) (hord : Ordinary bands c) (hsig : 0 < o.nSig)
    (hd : ∃ d : ℝ × ℝ, o.dpos = some d ∧ 0 < d.1 ∧ 0 < d.2)
    (hq : o.q.1 < 2 / 10 ∧ 99 / 100 < o.q.2) (hpa : o.pa.1 < -2 ∧ 2 < o.pa.2)
    (hs : o.sersic.1 < 101 / 100 ∧ 499 / 100 < o.sersic.2)
    (hrh : o.rhalf.1 < 51 / 1000 ∧ 29 / 100 < o.rhalf.2) :
    checkBounds (bands ++ ["ra", "dec", "q", "pa", "sersic", "rhalf"]) rows (b.map finite) = .ok () := by
  obtain ⟨d, hd0, hd1, hd2⟩ := hd
  refine (start_iff h hord hsig (Or.inl hd0) hd1 hd2 hs hrh).2 ?_
  intro r hr
  have hrange := C37_in_range (o := Forcepho.Postprocess.Postop.defaultOpts)
    (by refine ⟨?_, ?_, ?_, ?_⟩ <;> norm_num [Forcepho.Postprocess.Postop.defaultOpts]) (startRun_ok h).1 r hr
  obtain ⟨-, h2, -, h3⟩ := hrange
  have h3 := h3 rfl rfl
  norm_num [Forcepho.Postprocess.Postop.defaultOpts] at h2 h3
  exact ⟨⟨by linarith [h2.1, hq.1], by linarith [h2.2, hq.2]⟩, by linarith [h3.1, hpa.1], by linarith [h3.2, hpa.2]⟩

/-- C125, what it means for the sampler: if the rectified catalog does not lie inside its bounds, there is no
sampling position at all for the scene it describes; if it does, there is one. -/
theorem C125_position {n : Nat} (t : Bounded n) (ht : ∀ i, t.lower i < t.upper i) (q : Fin n → ℝ) :
    (∃ z, t.transform z = q) ↔ ∀ i, t.lower i < q i ∧ q i < t.upper i := by
  obtain ⟨h1, h2, h3⟩ := Forcepho.Transform.C29_bijection t ht
  constructor
  · rintro ⟨z, rfl⟩ i
    exact h1 z i
  · intro h
    exact ⟨_, h3.1 q h⟩

/-- A thin galaxy of a catalog with one band. -/
noncomputable def thinRow (q pa : ℝ) : String → Option ℝ := fun c =>
  if c = "F200W" then some 4 else if c = "ra" then some 53 else if c = "dec" then some (-27)
  else if c = "q" then some q else if c = "pa" then some pa else if c = "sersic" then some 2 else some (1 / 10)

/-- The catalog of one galaxy. -/
noncomputable def oneCat (q pa : ℝ) : InCat ℝ :=
  { cols := ["F200W", "ra", "dec", "q", "pa", "sersic", "rhalf"], rows := [thinRow q pa] }

lemma oneCat_ok (o : Options) (q pa : ℝ) :
    (∃ (rows : List Row) (b : List BRow), startRun o ["F200W"] (oneCat q pa) = .ok (rows, b)) ∧
      Ordinary ["F200W"] (oneCat q pa) := by
  constructor
  · have hr : ∃ rows, rectify Real.pi Forcepho.Postprocess.Postop.defaultOpts ["F200W"] (oneCat q pa) = .ok rows := by
      unfold rectify
      rw [if_pos (by simp [oneCat]), if_neg (by decide), if_pos (by simp [oneCat, shapeNames]), if_pos ?_]
      · exact ⟨_, rfl⟩
      · simp [oneCat, thinRow, shapeNames, outCols, tagNames]
    obtain ⟨rows, hr⟩ := hr
    obtain ⟨b, hb⟩ := (C34_ok_iff o ["F200W"] rows none).1.2 (by decide)
    exact ⟨rows, b, by simp only [startRun, hr, hb]⟩
  · intro r hr
    simp only [oneCat, List.mem_singleton] at hr
    subst hr
    constructor
    · intro d hd
      simp only [thinRow, String.reduceEq, if_false, if_true, Option.some.injEq] at hd
      subst hd
      norm_num [abs_lt]
    · intro bnd hb f hf
      simp only [List.mem_singleton] at hb
      subst hb
      simp only [thinRow, if_true, Option.some.injEq] at hf
      subst hf
      norm_num

/-- C125, the way the code fails: a galaxy with a square root of the axis ratio of 0.3, or an angle of 1.95,
passes rectification unchanged and lies outside the bounds made for it, whatever limits the configuration asks
for. -/
theorem C125_refuted (cfg : Options) :
    (∀ q pa : ℝ, (2 / 10 ≤ q ∧ q ≤ 4 / 10 ∧ -1 ≤ pa ∧ pa ≤ 1) ∨ (1 / 2 ≤ q ∧ q ≤ 99 / 100 ∧ 195 / 100 ≤ pa ∧ pa ≤ 2) →
      ∃ (r : Row) (b : BRow), parentRun cfg ["F200W"] (oneCat q pa) = .ok ([r], [b]) ∧
        r "q" = q ∧ r "pa" = pa ∧
        checkBounds ["F200W", "ra", "dec", "q", "pa", "sersic", "rhalf"] [r] [finite b] = .error .assertionError) := by
  intro q pa hqp
  obtain ⟨⟨rows, bb, h⟩, hord⟩ := oneCat_ok defaultBounds q pa
  have h1 := (startRun_ok h).1
  have h2 := (startRun_ok h).2
  have hlen : rows.length = 1 := (C37_copies h1).1
  obtain ⟨r, rfl⟩ := List.length_eq_one_iff.1 hlen
  have hlen2 : bb.length = 1 := (makeBounds_rows h2).1
  obtain ⟨b, rfl⟩ := List.length_eq_one_iff.1 hlen2
  obtain ⟨q', pa', k1, k2, k3, k4⟩ := start_shapes h1 (i := 0) (r0 := thinRow q pa) (r := r) rfl rfl
  simp only [thinRow, String.reduceEq, if_false, if_true, Option.some.injEq] at k1 k2
  subst k1 k2
  have hq : 2 / 10 ≤ q ∧ q ≤ 99 / 100 := by
    rcases hqp with h | h <;> constructor <;> linarith [h.1, h.2.1]
  have hp : -2 ≤ pa ∧ pa ≤ 2 := by
    rcases hqp with h | h <;> constructor <;> linarith [h.2.2.1, h.2.2.2]
  refine ⟨r, b, h, k3.trans (clip_id hq.1 hq.2), k4.trans (clip_id hp.1 hp.2), ?_⟩
  refine (C34_check _ _ _).2 ?_
  intro hc
  have := (C125_default_partial (cfg := cfg) h hord).1 hc (thinRow q pa) (by simp [oneCat])
  obtain ⟨⟨q', e1, a1⟩, pa', e2, a2, a3⟩ := this
  simp only [thinRow, String.reduceEq, if_false, if_true, Option.some.injEq] at e1 e2
  subst e1 e2
  rcases hqp with h | h
  · linarith [h.2.1]
  · have := Real.pi_lt_d2
    linarith [h.2.2.1]

/-- C125, the way the code fails: limits set in the configuration have no effect on a run of the parent
process; a run asked to keep Sersic indices below 3 gets bounds up to 5. -/
theorem C125_configured_refuted :
    ∃ (cfg : Options) (c : InCat ℝ) (rows : List Row) (b : BRow), cfg.sersic = (1, 3) ∧
      parentRun cfg ["F200W"] c = .ok (rows, [b]) ∧ b "sersic" = (some 1, some 5) := by
  obtain ⟨⟨rows, bb, h⟩, -⟩ := oneCat_ok defaultBounds (1 / 2) 0
  have h2 := (startRun_ok h).2
  have hlen : rows.length = 1 := (C37_copies (startRun_ok h).1).1
  obtain ⟨r, rfl⟩ := List.length_eq_one_iff.1 hlen
  have hlen2 : bb.length = 1 := (makeBounds_rows h2).1
  obtain ⟨b, rfl⟩ := List.length_eq_one_iff.1 hlen2
  exact ⟨{ defaultBounds with sersic := (1, 3) }, oneCat (1 / 2) 0, [r], b, rfl, h,
    ((C34_shape h2).2 0 r b rfl rfl).2.2.1⟩

/-- C125: the bounds on shapes of a run of the parent process, and of a scene made with the limits of a
configuration without limits of its own, in numbers; with them the distances by which a source may move. -/
theorem C125_limits {cfg : Options} {bands : List String} {c : InCat ℝ} {rows : List Row} {b : List BRow} :
    (parentRun cfg bands c = .ok (rows, b) → ∀ (i : Nat) (r : Row) (br : BRow), rows[i]? = some r →
      b[i]? = some br →
      br "q" = (some (4 / 10), some 1) ∧ br "pa" = (some (-(6 / 10) * Real.pi), some (6 / 10 * Real.pi)) ∧
      br "sersic" = (some 1, some 5) ∧ br "rhalf" = (some (3 / 100), some (3 / 10)) ∧
      br "dec" = (some (r "dec" - 6 / 100 / 3600), some (r "dec" + 6 / 100 / 3600)) ∧
      br "ra" = (some (r "ra" - 6 / 100 / 3600 / Real.cos (r "dec" * Real.pi / 180)),
                 some (r "ra" + 6 / 100 / 3600 / Real.cos (r "dec" * Real.pi / 180)))) ∧
    (startRun configBounds bands c = .ok (rows, b) → ∀ (i : Nat) (r : Row) (br : BRow), rows[i]? = some r →
      b[i]? = some br →
      br "q" = (some (4 / 10), some 1) ∧ br "pa" = (some (-2), some 2) ∧
      br "sersic" = (some (8 / 10), some 6) ∧ br "rhalf" = (some (3 / 100), some 1) ∧
      br "dec" = (some (r "dec" - 6 / 100 / 3600), some (r "dec" + 6 / 100 / 3600)) ∧
      br "ra" = (some (r "ra" - 6 / 100 / 3600 / Real.cos (r "dec" * Real.pi / 180)),
                 some (r "ra" + 6 / 100 / 3600 / Real.cos (r "dec" * Real.pi / 180)))) := by
  constructor
  · intro h i r br hr hb
    have h2 := (startRun_ok h).2
    obtain ⟨a1, a2, a3, a4, a5⟩ := (C34_shape h2).2 i r br hr hb
    exact ⟨a1, a2, a3, a4, a5 (6 / 100, 6 / 100) (Or.inr ⟨rfl, by norm_num [defaultBounds]⟩)⟩
  · intro h i r br hr hb
    have h2 := (startRun_ok h).2
    obtain ⟨a1, a2, a3, a4, a5⟩ := (C34_shape h2).2 i r br hr hb
    exact ⟨a1, a2, a3, a4, a5 (6 / 100, 6 / 100) (Or.inl rfl)⟩

/-- The hypotheses can be met: a round galaxy passes. -/
example : ∃ (rows : List Row) (b : List BRow), parentRun configBounds ["F200W"] (oneCat (9 / 10) 1) = .ok (rows, b) ∧
    checkBounds (["F200W"] ++ ["ra", "dec", "q", "pa", "sersic", "rhalf"]) rows (b.map finite) = .ok () := by
  obtain ⟨⟨rows, b, h⟩, hord⟩ := oneCat_ok defaultBounds (9 / 10) 1
  refine ⟨rows, b, h, (C125_default_partial (cfg := configBounds) h hord).2 ?_⟩
  intro r hr
  simp only [oneCat, List.mem_singleton] at hr
  subst hr
  have := Real.pi_gt_three
  exact ⟨⟨9 / 10, by simp [thinRow], by norm_num⟩, 1, by simp [thinRow], by linarith, by linarith⟩

end Forcepho.Bounds
