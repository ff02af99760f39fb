import Verif.Demo.Figures
import Mathlib.Tactic.Linarith
import Mathlib.Tactic.Ring
import Mathlib.Tactic.FieldSimp
import Mathlib.Tactic.NormNum
import Mathlib.Tactic.Positivity

/-! # C162: the figures of the demonstrations show what they say -/

set_option autoImplicit false

namespace Forcepho.Demo.Figures

open Forcepho.Profile (fracSersic C98_fraction_shape)

/-! ## The movie -/

lemma filterMap_range {α : Type} (f : Nat → Option α) : ∀ n : Nat, (∀ i, i < n → (f i).isSome) →
    ((List.range n).filterMap f).length = n ∧ ∀ i, i < n → ((List.range n).filterMap f)[i]? = f i
  | 0, _ => by simp
  | n + 1, h => by
    obtain ⟨h1, h2⟩ := filterMap_range f n fun i hi => h i (by omega)
    obtain ⟨a, ha⟩ := Option.isSome_iff_exists.1 (h n (by omega))
    rw [List.range_succ, List.filterMap_append]
    have e : List.filterMap f [n] = [a] := by simp [ha]
    rw [e]
    refine ⟨by simp [h1], fun i hi => ?_⟩
    rcases Nat.lt_or_ge i n with h3 | h3
    · rw [List.getElem?_append_left (by omega), h2 i h3]
    · have : i = n := by omega
      subst this
      rw [List.getElem?_append_right (by omega), h1, Nat.sub_self, ha]
      rfl

/-- `l[::k]` has in place `i` the element `i * k`, as long as there is one. -/
lemma every_spec {α : Type} (k : Nat) (hk : 0 < k) (l : List α) :
    ∃ r, every k l = some r ∧ ∀ i, r[i]? = l[i * k]? := by
  refine ⟨_, if_neg (by omega), fun i => ?_⟩
  have key : ∀ i, i < (l.length + k - 1) / k ↔ i * k < l.length := by
    intro i
    rw [Nat.lt_iff_add_one_le, Nat.le_div_iff_mul_le hk, Nat.add_mul]
    omega
  obtain ⟨h1, h2⟩ := filterMap_range (fun i => l[i * k]?) ((l.length + k - 1) / k) fun i hi => by
    have := (key i).1 hi
    simp [this]
  rcases Nat.lt_or_ge i ((l.length + k - 1) / k) with h | h
  · exact h2 i h
  · have h3 : ¬ i * k < l.length := fun h3 => by have := (key i).2 h3; omega
    rw [List.getElem?_eq_none (by omega), List.getElem?_eq_none (by omega)]

lemma mapM_of_get {α β : Type} (f : α → Option β) : ∀ l : List α, (∀ x ∈ l, (f x).isSome) →
    ∃ r : List β, l.mapM f = some r ∧ ∀ i : Nat, r[i]? = (l[i]?).bind f
  | [], _ => ⟨[], rfl, by simp⟩
  | x :: l, h => by
    obtain ⟨r, h1, h2⟩ := mapM_of_get f l fun y hy => h y (by simp [hy])
    obtain ⟨a, ha⟩ := Option.isSome_iff_exists.1 (h x (by simp))
    refine ⟨a :: r, by simp [List.mapM_cons, ha, h1], fun i => ?_⟩
    cases i with
    | zero => simp [ha]
    | succ i => simpa using h2 i

/-- C162 (movie, what it shows): frame `i` marks draw `n_tune + i * thin` and shows the residual of draw `i * thin`. -/
theorem C162_movie {Q R M : Type} (residual : Q → R) (mark : Q → M) (thin nTune : Nat) (ht : 0 < thin) (chain : List Q) :
    ∃ fs, movie residual mark thin nTune chain = some fs ∧
      ∀ i, fs[i]? = (chain[nTune + i * thin]?).bind fun q => (chain[i * thin]?).map fun p => (residual p, mark q) := by
  obtain ⟨qs, hq, hqs⟩ := every_spec thin ht chain
  obtain ⟨vs, hv, hvs⟩ := every_spec thin ht ((chain.map mark).drop nTune)
  have h1 : ∀ p ∈ vs.zipIdx, (((qs.map residual)[p.2]?).map fun d => (d, p.1)).isSome := by
    rintro ⟨v, j⟩ hp
    have hj := List.mem_zipIdx_iff_getElem?.1 hp
    dsimp only at hj ⊢
    rw [hvs] at hj
    have h2 := (List.getElem?_eq_some_iff.1 hj).1
    simp only [List.length_drop, List.length_map] at h2
    rw [List.getElem?_map, hqs, List.getElem?_eq_getElem (show j * thin < chain.length by omega)]
    rfl
  obtain ⟨fs, hf, hfs⟩ := mapM_of_get (fun p : M × Nat => ((qs.map residual)[p.2]?).map fun d => (d, p.1)) vs.zipIdx h1
  refine ⟨fs, by simp only [movie, hq, hv, Option.bind_some]; exact hf, fun i => ?_⟩
  rw [hfs, List.getElem?_zipIdx, hvs, List.getElem?_drop, List.getElem?_map]
  cases h : chain[nTune + i * thin]? with
  | none => rfl
  | some q =>
    simp only [Option.map_some, Option.bind_some, Nat.zero_add, List.getElem?_map, hqs]
    cases chain[i * thin]? <;> rfl

/-- A thinning of zero stops the script. -/
theorem C162_movie_thin {Q R M : Type} (residual : Q → R) (mark : Q → M) (nTune : Nat) (chain : List Q) :
    movie residual mark 0 nTune chain = none := rfl

/-- C162 (movie): without warm-up every frame shows one draw, its residual and its mark. -/
theorem C162_movie_partial {Q R M : Type} (residual : Q → R) (mark : Q → M) (thin : Nat) (ht : 0 < thin) (chain : List Q) :
    ∃ fs, movie residual mark thin 0 chain = some fs ∧
      ∀ i, fs[i]? = (chain[i * thin]?).map fun q => (residual q, mark q) := by
  obtain ⟨fs, h1, h2⟩ := C162_movie residual mark thin 0 ht chain
  refine ⟨fs, h1, fun i => ?_⟩
  rw [h2, Nat.zero_add]
  cases chain[i * thin]? <;> rfl

/-- C162 (movie, refuted): with warm-up draws in the chain no frame shows the residual of the draw it marks: the residuals start
with the first warm-up draw, the marks with the first draw after the warm-up. -/
theorem C162_movie_refuted {Q R M : Type} (residual : Q → R) (mark : Q → M) (hr : Function.Injective residual)
    (hm : Function.Injective mark) (thin nTune : Nat) (hn : 0 < nTune) (chain : List Q) (hc : chain.Nodup)
    (fs : List (R × M)) (h : movie residual mark thin nTune chain = some fs) :
    ∀ p ∈ fs, ¬ ∃ q ∈ chain, p = (residual q, mark q) := by
  have ht : 0 < thin := by
    rcases Nat.eq_zero_or_pos thin with rfl | h0
    · rw [C162_movie_thin] at h
      cases h
    · exact h0
  obtain ⟨fs', h1, h2⟩ := C162_movie residual mark thin nTune ht chain
  obtain rfl : fs = fs' := Option.some.inj (h.symm.trans h1)
  rintro p hp ⟨q, hq, rfl⟩
  obtain ⟨i, hi⟩ := List.mem_iff_getElem?.1 hp
  rw [h2] at hi
  obtain ⟨q1, e1, hi⟩ := Option.bind_eq_some_iff.1 hi
  obtain ⟨q2, e2, hi⟩ := Option.map_eq_some_iff.1 hi
  obtain ⟨i1, i2⟩ := Prod.mk.inj hi
  obtain rfl := hr i1
  obtain rfl := hm i2
  obtain ⟨l1, g1⟩ := List.getElem?_eq_some_iff.1 e1
  obtain ⟨l2, g2⟩ := List.getElem?_eq_some_iff.1 e2
  have := (List.Nodup.getElem_inj_iff hc (hi := l1) (hj := l2)).1 (g1.trans g2.symm)
  omega

example : movie id id 2 3 [10, 11, 12, 13, 14, 15, 16, 17] = some [(10, 13), (12, 15), (14, 17)] := by decide

/-! ## Truths -/

/-- C162 (truths): the values that the figures of the chain mark as true are those the fit started from exactly if the first
draw of every source is the start. -/
theorem C162_truth (f : Fit) (col : String) :
    drawnTruth f col = basicTruth f col ↔ List.Forall₂ (fun x t => x.head? = some t) (f.chaincat col) (f.active col) := by
  rw [drawnTruth, basicTruth]
  generalize f.chaincat col = a
  generalize f.active col = b
  induction a generalizing b with
  | nil => cases b <;> simp
  | cons x a ih =>
    cases b with
    | nil => simp
    | cons t b => simp [ih]

/-- C162 (truths, refuted): a fit of a source of flux 1 whose chain starts with the draw 2 shows 2 as the truth. -/
theorem C162_truth_refuted : ∃ f : Fit, f.active "CLEAR" = [1] ∧ f.chaincat "CLEAR" = [[2, 1, 1]] ∧
    drawnTruth f "CLEAR" = [some 2] ∧ basicTruth f "CLEAR" = [some 1] :=
  ⟨⟨fun _ => [[2, 1, 1]], 1, fun _ => [1]⟩, rfl, rfl, rfl, rfl⟩

/-- A movie of a chain of five draws, thinned by two, of which one is warm-up. -/
example : movie (fun q : Nat => 10 * q) id 2 1 [0, 1, 2, 3, 4] = some [(0, 1), (20, 3)] := rfl

/-! ## Several fits in one figure -/

/-- C162 (warm-up): of every fit and column the figure shows the draws of the first source without as many draws as the last
fit has warm-up; these are the draws after its own warm-up exactly if the two numbers agree. -/
theorem C162_warmup (fits : List Fit) (cols : List String) (l : Fit) (hl : fits.getLast? = some l)
    (hs : ∀ f ∈ fits, ∀ c ∈ cols, f.chaincat c ≠ []) :
    ∃ sets, singleSets fits cols = some sets ∧ sets.length = fits.length ∧
      ∀ (k : Nat) (f : Fit) (j : Nat) (c : String) (x : List ℝ), fits[k]? = some f → cols[j]? = some c →
        (f.chaincat c).head? = some x →
          (sets[k]?).bind (fun s => s[j]?) = some (x.drop l.nTune) ∧
          (f.nTune ≤ x.length → l.nTune ≤ x.length → (x.drop l.nTune = x.drop f.nTune ↔ f.nTune = l.nTune)) := by
  have h1 : ∀ f ∈ fits, ∃ r, (cols.mapM fun c => ((f.chaincat c).head?).map fun x => x.drop l.nTune) = some r ∧
      ∀ i, r[i]? = (cols[i]?).bind fun c => ((f.chaincat c).head?).map fun x => x.drop l.nTune := fun f hf =>
    mapM_of_get _ cols fun c hc => by
      obtain ⟨y, t, e⟩ := List.exists_cons_of_ne_nil (hs f hf c hc)
      simp [e]
  obtain ⟨sets, h2, h3⟩ := mapM_of_get
    (fun f : Fit => cols.mapM fun c => ((f.chaincat c).head?).map fun x => x.drop l.nTune) fits fun f hf => by
      obtain ⟨r, hr, -⟩ := h1 f hf
      simp [hr]
  refine ⟨sets, by simp only [singleSets, hl, Option.bind_some]; exact h2, ?_, ?_⟩
  · by_contra hne
    rcases Nat.lt_or_ge sets.length fits.length with h | h
    · have := h3 sets.length
      rw [List.getElem?_eq_none (le_refl _), List.getElem?_eq_getElem h] at this
      obtain ⟨r, hr, -⟩ := h1 _ (List.getElem_mem h)
      simp [hr] at this
    · have := h3 fits.length
      rw [List.getElem?_eq_none (le_refl _), List.getElem?_eq_getElem (by omega)] at this
      simp at this
  · intro k f j c x hf hc hx
    obtain ⟨r, hr, hr2⟩ := h1 f (List.mem_iff_getElem?.2 ⟨k, hf⟩)
    refine ⟨?_, fun a b => ⟨fun e => ?_, fun e => by rw [e]⟩⟩
    · rw [h3, hf, Option.bind_some, hr, Option.bind_some, hr2, hc, Option.bind_some, hx]
      rfl
    · have := congrArg List.length e
      simp only [List.length_drop] at this
      omega

/-- C162 (warm-up, refuted): with two warm-up draws in the first file and none in the second, the figure shows warm-up draws. -/
theorem C162_warmup_refuted : ∃ f g : Fit, f.nTune = 2 ∧ f.chaincat "rhalf" = [[90, 91, 1, 2]] ∧
    singleSets [f, g] ["rhalf"] = some [[[90, 91, 1, 2]], [[3]]] :=
  ⟨⟨fun _ => [[90, 91, 1, 2]], 2, fun _ => []⟩, ⟨fun _ => [[3]], 0, fun _ => []⟩, rfl, rfl, rfl⟩

/-- C162 (legend): the first five fits are drawn, each in its own colour, and the legend gives that colour the S/N of the fit;
further fits are neither drawn nor in the legend. -/
theorem C162_legend {α : Type} (sets : List α) (texts : List String) (hn : texts.length = sets.length) (k : Nat) :
    (k < 5 → ∀ s t, sets[k]? = some s → texts[k]? = some t →
      ∃ c, (drawn sets)[k]? = some (s, c) ∧ (legend texts)[k]? = some (c, t) ∧
        ∀ j s', (drawn sets)[j]? = some (s', c) → j = k) ∧
    (5 ≤ k → (drawn sets)[k]? = none ∧ (legend texts)[k]? = none) ∧
    (legend texts).length = (drawn sets).length := by
  have h5 : colors.length = 5 := rfl
  have hd : colors.Nodup := by decide
  refine ⟨fun hk s t hs ht => ?_, fun hk => ?_, ?_⟩
  · have hks := (List.getElem?_eq_some_iff.1 hs).1
    have hc : colors[k]? = some (colors[k]'(by omega)) := List.getElem?_eq_getElem _
    refine ⟨colors[k]'(by omega), ?_, ?_, fun j s' hj => ?_⟩
    · rw [drawn, List.getElem?_zip_eq_some]
      exact ⟨hs, by rw [List.getElem?_take, if_pos hks]; exact hc⟩
    · rw [legend, List.getElem?_zip_eq_some]
      exact ⟨hc, ht⟩
    · rw [drawn, List.getElem?_zip_eq_some] at hj
      obtain ⟨h1, h2⟩ := hj
      rw [List.getElem?_take] at h2
      split at h2
      · obtain ⟨h3, h4⟩ := List.getElem?_eq_some_iff.1 h2
        exact (List.Nodup.getElem_inj_iff hd).1 h4
      · cases h2
  · constructor <;> refine List.getElem?_eq_none ?_
    · simp only [drawn, List.length_zip, List.length_take, h5]
      omega
    · simp only [legend, List.length_zip, h5]
      omega
  · simp only [drawn, legend, List.length_zip, List.length_take, h5]
    omega

example : (drawn [1, 2, 3, 4, 5, 6]).length = 5 ∧ (legend ["a", "b"]) = [("slateblue", "a"), ("darkorange", "b")] := by decide

/-- C162 (one S/N, refuted): asked for a single S/N the script stops before the residuals; with more it shows the second. -/
theorem C162_second {α : Type} (a b : α) (l : List α) : second [a] = none ∧ second (a :: b :: l) = some b := ⟨rfl, rfl⟩

/-- What the label of a column should be: the catalogs give `q` as the square root of the axis ratio and `pa` in radians. -/
def labelOf : String → Option String
  | "CLEAR" => some "Flux"
  | "ra" => some "RA"
  | "dec" => some "Dec"
  | "q" => some "$\\sqrt{b/a}$"
  | "pa" => some "PA (radians)"
  | "sersic" => some "$n_{\\rm sersic}$"
  | "rhalf" => some "R$_{half}$ (\")"
  | _ => none

/-- C162 (labels): every row of the corner plot and every panel of the traces has the label of its column. -/
theorem C162_labels : singleCols.map labelOf = singleLabels.map some ∧
    (["CLEAR"] ++ ["ra", "dec", "q", "pa", "sersic", "rhalf"]).map labelOf = traceLabels.map some := by decide

/-- C162 (ranges): the common range of a parameter begins at the least of the lower ends and ends at the largest of the upper
ends of its ranges in all fits. -/
theorem C162_span (span : List ℝ → ℝ × ℝ) (x : List ℝ) (rest : List (List ℝ)) :
    IsLeast {v | ∃ y ∈ x :: rest, v = (span y).1} (multispan1 span x rest).1 ∧
    IsGreatest {v | ∃ y ∈ x :: rest, v = (span y).2} (multispan1 span x rest).2 := by
  have hmin : ∀ (rest : List (List ℝ)) (m : ℝ),
      (rest.foldl (fun m y => min m (span y).1) m ≤ m ∧ ∀ y ∈ rest, rest.foldl (fun m y => min m (span y).1) m ≤ (span y).1) ∧
      (rest.foldl (fun m y => min m (span y).1) m = m ∨ ∃ y ∈ rest, rest.foldl (fun m y => min m (span y).1) m = (span y).1) := by
    intro rest
    induction rest with
    | nil => simp
    | cons z rest ih =>
      intro m
      obtain ⟨⟨h1, h2⟩, h3⟩ := ih (min m (span z).1)
      simp only [List.foldl_cons]
      refine ⟨⟨h1.trans (min_le_left _ _), fun y hy => ?_⟩, ?_⟩
      · rcases List.mem_cons.1 hy with rfl | hy
        · exact h1.trans (min_le_right _ _)
        · exact h2 y hy
      · rcases h3 with h3 | ⟨y, hy, h3⟩
        · rcases min_choice m (span z).1 with h | h
          · exact .inl (h3.trans h)
          · exact .inr ⟨z, by simp, h3.trans h⟩
        · exact .inr ⟨y, by simp [hy], h3⟩
  have hmax : ∀ (rest : List (List ℝ)) (m : ℝ),
      (m ≤ rest.foldl (fun m y => max m (span y).2) m ∧ ∀ y ∈ rest, (span y).2 ≤ rest.foldl (fun m y => max m (span y).2) m) ∧
      (rest.foldl (fun m y => max m (span y).2) m = m ∨ ∃ y ∈ rest, rest.foldl (fun m y => max m (span y).2) m = (span y).2) := by
    intro rest
    induction rest with
    | nil => simp
    | cons z rest ih =>
      intro m
      obtain ⟨⟨h1, h2⟩, h3⟩ := ih (max m (span z).2)
      simp only [List.foldl_cons]
      refine ⟨⟨(le_max_left _ _).trans h1, fun y hy => ?_⟩, ?_⟩
      · rcases List.mem_cons.1 hy with rfl | hy
        · exact (le_max_right _ _).trans h1
        · exact h2 y hy
      · rcases h3 with h3 | ⟨y, hy, h3⟩
        · rcases max_choice m (span z).2 with h | h
          · exact .inl (h3.trans h)
          · exact .inr ⟨z, by simp, h3.trans h⟩
        · exact .inr ⟨y, by simp [hy], h3⟩
  obtain ⟨⟨a1, a2⟩, a3⟩ := hmin rest (span x).1
  obtain ⟨⟨b1, b2⟩, b3⟩ := hmax rest (span x).2
  refine ⟨⟨?_, ?_⟩, ⟨?_, ?_⟩⟩
  · rcases a3 with h | ⟨y, hy, h⟩
    · exact ⟨x, by simp, h⟩
    · exact ⟨y, by simp [hy], h⟩
  · rintro v ⟨y, hy, rfl⟩
    rcases List.mem_cons.1 hy with rfl | hy
    · exact a1
    · exact a2 y hy
  · rcases b3 with h | ⟨y, hy, h⟩
    · exact ⟨x, by simp, h⟩
    · exact ⟨y, by simp [hy], h⟩
  · rintro v ⟨y, hy, rfl⟩
    rcases List.mem_cons.1 hy with rfl | hy
    · exact b1
    · exact b2 y hy

lemma flatten_chunks (N : Nat) : ∀ L : List (List ℝ), (∀ x ∈ L, x.length = N) →
    L.flatten.length = L.length * N ∧
    (List.range L.length).map (fun k => (L.flatten.drop (k * N)).take N) = L
  | [], _ => by simp
  | x :: L, h => by
    obtain ⟨h1, h2⟩ := flatten_chunks N L fun y hy => h y (by simp [hy])
    have hx := h x (by simp)
    refine ⟨by simp [h1, hx]; ring, ?_⟩
    rw [List.length_cons, List.range_succ_eq_map, List.map_cons, List.map_map, List.flatten_cons]
    congr 1
    · simp [← hx]
    · refine Eq.trans ?_ h2
      refine List.map_congr_left fun k _ => ?_
      simp only [Function.comp_apply, Nat.succ_eq_add_one]
      rw [show (k + 1) * N = x.length + k * N by rw [hx]; ring, ← List.drop_drop, List.drop_left]

lemma reshape_flatten (N : Nat) (L : List (List ℝ)) (h : ∀ x ∈ L, x.length = N) (hL : 0 < L.length) :
    reshape L.length L.flatten = some L := by
  obtain ⟨h1, h2⟩ := flatten_chunks N L h
  rw [reshape, if_pos ⟨by omega, by rw [h1]; exact Nat.mul_mod_right _ _⟩, h1, Nat.mul_div_cancel_left _ hL, h2]

/-- C162 (dithers and mosaics): for a fit with the sources the figure counts, the row with the label of a column and a source is
the chain of that column for that source. -/
theorem C162_rows (n N : Nat) (hn : 0 < n) (f : Fit) (hf : ∀ c ∈ ["CLEAR", "rhalf", "sersic"],
    (f.chaincat c).length = n ∧ ∀ x ∈ f.chaincat c, x.length = N) :
    ∃ rows, mosaicRows n f = some rows ∧ rows.length = 3 * n ∧ (mosaicLabels n).length = 3 * n ∧
      (∀ c ∈ ["CLEAR", "rhalf", "sersic"], ∀ s < n, (c, s) ∈ mosaicLabels n) ∧
      ∀ (k : Nat) (c : String) (s : Nat), (mosaicLabels n)[k]? = some (c, s) → rows[k]? = (f.chaincat c)[s]? ∧ s < n := by
  have key : ∀ cols : List String, (∀ c ∈ cols, (f.chaincat c).length = n) →
      (cols.flatMap fun c => f.chaincat c).map some =
        (cols.flatMap fun c => (List.range n).map fun s => (c, s)).map fun p => (f.chaincat p.1)[p.2]? := by
    intro cols hc
    rw [List.map_flatMap, List.map_flatMap]
    refine List.flatMap_congr fun c hcc => ?_
    rw [List.map_map]
    refine List.ext_getElem? fun i => ?_
    simp only [List.getElem?_map, Function.comp_def]
    rcases Nat.lt_or_ge i n with h | h
    · rw [List.getElem?_range h, List.getElem?_eq_getElem (by rw [hc c hcc]; exact h)]
      simp only [Option.map_some]
      rw [List.getElem?_eq_getElem (by rw [hc c hcc]; exact h)]
    · rw [List.getElem?_eq_none (by rw [hc c hcc]; exact h), List.getElem?_eq_none (by simpa using h)]
      rfl
  have h1 := key mosaicCols fun c hc => (hf c hc).1
  set L := mosaicCols.flatMap fun c => f.chaincat c with hL
  have hlen : L.length = mosaicCols.length * n := by
    have := congrArg List.length h1
    rw [List.length_map, List.length_map] at this
    rw [this]
    simp [mosaicCols]
    ring
  have hlab : (mosaicLabels n).length = 3 * n := by
    simp [mosaicLabels, mosaicCols]
    ring
  have hx : ∀ x ∈ L, x.length = N := by
    intro x hx
    obtain ⟨c, hc, hx⟩ := List.mem_flatMap.1 hx
    exact (hf c hc).2 x hx
  refine ⟨L, ?_, hlen, hlab, ?_, fun k c s hk => ?_⟩
  · rw [mosaicRows, ← hlen]
    exact reshape_flatten N L hx (by rw [hlen]; simp [mosaicCols, hn])
  · intro c hc s hs
    exact List.mem_flatMap.2 ⟨c, hc, List.mem_map.2 ⟨s, List.mem_range.2 hs, rfl⟩⟩
  · have h2 := congrArg (fun l => l[k]?) h1
    simp only [List.getElem?_map] at h2
    change _ = Option.map _ (mosaicLabels n)[k]? at h2
    rw [hk] at h2
    have hm : (c, s) ∈ mosaicLabels n := List.mem_iff_getElem?.2 ⟨k, hk⟩
    obtain ⟨c', hc', hm⟩ := List.mem_flatMap.1 hm
    obtain ⟨s', hs', e⟩ := List.mem_map.1 hm
    obtain ⟨rfl, rfl⟩ := Prod.mk.inj e
    refine ⟨?_, List.mem_range.1 hs'⟩
    simp only [Option.map_some] at h2
    obtain ⟨v, hv, e⟩ := Option.map_eq_some_iff.1 h2
    rw [hv, e]

/-- C162 (dithers and mosaics, refuted): if the fit to the mosaic has two sources and the fit to the dithers one, the draws of
the two are shown as one chain. -/
theorem C162_rows_refuted : ∃ f : Fit, f.chaincat "CLEAR" = [[1], [2]] ∧
    mosaicRows 1 f = some [[1, 2], [1, 2], [1, 2]] := by
  refine ⟨⟨fun _ => [[1], [2]], 0, fun _ => []⟩, rfl, ?_⟩
  rw [mosaicRows, reshape, if_pos (by decide)]
  rfl

/-- Two sources with two draws each. -/
example : ∃ f : Fit, ∀ c ∈ ["CLEAR", "rhalf", "sersic"], (f.chaincat c).length = 2 ∧ ∀ x ∈ f.chaincat c, x.length = 2 :=
  ⟨⟨fun _ => [[1, 2], [3, 4]], 0, fun _ => []⟩, fun _ _ => ⟨rfl, by simp⟩⟩

/-! ## Fluxes and colours -/

/-- C162 (total flux): the total flux of a draw is the sum of the fluxes of all sources in that draw. -/
theorem C162_total (l : List (List ℝ)) (hl : l ≠ []) (N : Nat) (hN : ∀ x ∈ l, x.length = N) :
    (totalFlux l).length = N ∧ ∀ i < N, (totalFlux l)[i]? = some ((l.map fun x => x.getD i 0).sum) := by
  induction l with
  | nil => exact absurd rfl hl
  | cons x l ih =>
    have hx := hN x (by simp)
    cases l with
    | nil =>
      refine ⟨hx, fun i hi => ?_⟩
      simp [totalFlux, List.getElem?_eq_getElem (show i < x.length by omega)]
    | cons y l =>
      obtain ⟨h1, h2⟩ := ih (by simp) fun z hz => hN z (by simp [hz])
      rw [totalFlux]
      · refine ⟨by simp [hx, h1], fun i hi => ?_⟩
        rw [List.getElem?_zipWith, h2 i hi, List.getElem?_eq_getElem (show i < x.length by omega)]
        simp [List.getElem?_eq_getElem (show i < x.length by omega)]
      · simp

/-- C162 (colours): the colour is the difference of the magnitudes in the two bands: the flux in the first band is the flux in the
second, fainter by that many magnitudes; it does not depend on the unit of flux and changes its sign with the order. -/
theorem C162_color (f0 f1 c : ℝ) (h0 : 0 < f0) (h1 : 0 < f1) (hc : 0 < c) :
    f0 = f1 * (10 : ℝ) ^ (-(2 / 5) * color f0 f1) ∧ color (c * f0) (c * f1) = color f0 f1 ∧ color f1 f0 = -color f0 f1 := by
  refine ⟨?_, ?_, ?_⟩
  · rw [color, show -(2 / 5) * (-5 / 2 * Real.logb 10 (f0 / f1)) = Real.logb 10 (f0 / f1) by ring,
      Real.rpow_logb (by norm_num) (by norm_num) (by positivity)]
    field_simp
  · rw [color, color, mul_div_mul_left _ _ hc.ne']
  · rw [color, color, ← inv_div f0 f1, Real.logb_inv]
    ring

/-- C162 (aperture): the aperture flux is part of the flux, grows with the aperture, and is half of the flux for an aperture of
the half-light radius of the draw; two bands with the same shape have the colour of their total fluxes. -/
theorem C162_aperture (k r0 flux n rh : ℝ) (hk : 0 < k) (h0 : 0 < r0) (hf : 0 < flux) (hn : 0 < n) (hr : 0 < rh) :
    (0 < apflux k r0 flux n rh ∧ apflux k r0 flux n rh < flux) ∧
    (∀ k', k < k' → apflux k r0 flux n rh < apflux k' r0 flux n rh) ∧
    apflux 1 rh flux n rh = flux / 2 ∧
    (∀ flux', 0 < flux' → color (apflux k r0 flux n rh) (apflux k r0 flux' n rh) = color flux flux') := by
  obtain ⟨z, m, b, -⟩ := C98_fraction_shape (rh := rh) (n := n) hn hr
  have hp : 0 < fracSersic (r0 * k) rh n := by
    rw [← z]
    exact m 0 (r0 * k) le_rfl (by positivity)
  refine ⟨⟨mul_pos hf hp, ?_⟩, fun k' hk' => ?_, ?_, fun f' hf' => ?_⟩
  · exact mul_lt_of_lt_one_right hf (b _ (by positivity))
  · exact mul_lt_mul_of_pos_left (m _ _ (by positivity) (mul_lt_mul_of_pos_left hk' h0)) hf
  · have := (Forcepho.Profile.C98_fraction hn hr le_rfl
      (Forcepho.Profile.flux_total (ie := 1) hn (Forcepho.Profile.bn_spec hn).1 hr)).2
    rw [apflux, mul_one, this]
    ring
  · rw [apflux, apflux, mul_comm flux, mul_comm f']
    exact (C162_color flux f' _ hf hf' hp).2.1

/-- C162 (separate fits, refuted): with one source the script stops; with more the first draws of all are marked. -/
theorem C162_separate (x y : List ℝ) (l : List (List ℝ)) :
    firstColumn (squeeze [x]) = none ∧
    firstColumn (squeeze (x :: y :: l)) = some ((x :: y :: l).map fun z => z.head?) := ⟨rfl, rfl⟩

/-- The total of two sources in two draws. -/
example : totalFlux [[1, 2], [10, 20]] = [11, 22] := by
  norm_num [totalFlux]

/-! ## Text and scales -/

/-- C162 (text): the trace is labelled exactly if the three percentiles differ; the digits are enough to give the median, if it
is at most one, to half of either uncertainty, whatever the rounding to that many significant digits. -/
theorem C162_text (lo mid hi : ℝ) (h1 : lo ≤ mid) (h2 : mid ≤ hi) :
    (traceDigits lo mid hi = none ↔ lo = mid ∨ mid = hi) ∧
    ∀ p, traceDigits lo mid hi = some p → 1 ≤ p ∧ ∀ x : ℝ, |x - mid| ≤ |mid| / 2 * (10 : ℝ) ^ (-((p : ℝ) - 1)) →
      |x - mid| ≤ |mid| / 2 * (mid - lo) ∧ |x - mid| ≤ |mid| / 2 * (hi - mid) := by
  constructor
  · rw [traceDigits]
    split
    · rename_i h
      refine ⟨fun _ => ?_, fun _ => rfl⟩
      rcases h with h | h
      · exact .inl (by linarith)
      · exact .inr (by linarith)
    · rename_i h
      refine ⟨fun h => (nomatch h), fun h' => ?_⟩
      push Not at h
      rcases h' with h' | h'
      · exact absurd (by linarith) h.1
      · exact absurd (by linarith) h.2
  · intro p hp
    rw [traceDigits] at hp
    split at hp
    · cases hp
    rename_i hne
    push Not at hne
    have ha : 0 < mid - lo := lt_of_le_of_ne (by linarith) (Ne.symm hne.1)
    have hb : 0 < hi - mid := lt_of_le_of_ne (by linarith) (Ne.symm hne.2)
    have hp := Option.some.inj hp
    set A := ⌈|Real.logb 10 (mid - lo)|⌉ with hA
    set B := ⌈|Real.logb 10 (hi - mid)|⌉ with hB
    have hA0 : 0 ≤ A := Int.ceil_nonneg (abs_nonneg _)
    have hp1 : (p : ℤ) = max A B + 1 := by
      rw [← hp]
      exact Int.toNat_of_nonneg (by have := le_max_left A B; omega)
    have hpr : (p : ℝ) - 1 = ((max A B : ℤ) : ℝ) := by
      have : ((p : ℤ) : ℝ) = ((max A B + 1 : ℤ) : ℝ) := by rw [hp1]
      push_cast at this ⊢
      linarith
    have hm0 := le_max_left A B
    refine ⟨by omega, fun x hx => ?_⟩
    have small : ∀ (d : ℝ) (C : ℤ), 0 < d → C = ⌈|Real.logb 10 d|⌉ → C ≤ max A B →
        (10 : ℝ) ^ (-((p : ℝ) - 1)) ≤ d := by
      intro d C hd hC hle
      have e1 : |Real.logb 10 d| ≤ (p : ℝ) - 1 := by
        rw [hpr]
        refine (Int.le_ceil _).trans ?_
        rw [← hC]
        exact_mod_cast hle
      have e2 : -((p : ℝ) - 1) ≤ Real.logb 10 d := by linarith [neg_abs_le (Real.logb 10 d)]
      calc (10 : ℝ) ^ (-((p : ℝ) - 1)) ≤ (10 : ℝ) ^ (Real.logb 10 d) :=
            Real.rpow_le_rpow_of_exponent_le (by norm_num) e2
        _ = d := Real.rpow_logb (by norm_num) (by norm_num) hd
    have hmid : 0 ≤ |mid| / 2 := by positivity
    exact ⟨hx.trans (mul_le_mul_of_nonneg_left (small _ A ha hA (le_max_left _ _)) hmid),
      hx.trans (mul_le_mul_of_nonneg_left (small _ B hb hB (le_max_right _ _)) hmid)⟩

/-- C162 (text, refuted): a median of 53.4 with uncertainties of 0.1 is given with two digits, so as a whole number, from which it
is four times as far as its uncertainty. -/
theorem C162_text_refuted : traceDigits (533 / 10) (534 / 10) (535 / 10) = some 2 ∧
    ∀ n : ℤ, 4 * (535 / 10 - 534 / 10 : ℝ) ≤ |(n : ℝ) - 534 / 10| := by
  constructor
  · have h1 : Real.logb 10 ((534 / 10 : ℝ) - 533 / 10) = -1 := by
      rw [show (534 / 10 : ℝ) - 533 / 10 = 10⁻¹ by norm_num, Real.logb_inv, Real.logb_self_eq_one (by norm_num)]
    have h2 : Real.logb 10 ((535 / 10 : ℝ) - 534 / 10) = -1 := by
      rw [show (535 / 10 : ℝ) - 534 / 10 = 10⁻¹ by norm_num, Real.logb_inv, Real.logb_self_eq_one (by norm_num)]
    rw [traceDigits, if_neg (by norm_num), h1, h2]
    norm_num
    rfl
  · intro n
    rcases le_or_gt n 53 with h | h
    · have : (n : ℝ) ≤ 53 := by exact_mod_cast h
      rw [abs_sub_comm]
      exact le_trans (by linarith) (le_abs_self _)
    · have : (54 : ℝ) ≤ n := by exact_mod_cast h
      exact le_trans (by linarith) (le_abs_self _)

lemma fold_min (l : List ℝ) : ∀ m : ℝ, (l.foldl min m ≤ m ∧ ∀ y ∈ l, l.foldl min m ≤ y) ∧
    (l.foldl min m = m ∨ l.foldl min m ∈ l) := by
  induction l with
  | nil => simp
  | cons z l ih =>
    intro m
    obtain ⟨⟨h1, h2⟩, h3⟩ := ih (min m z)
    simp only [List.foldl_cons]
    refine ⟨⟨h1.trans (min_le_left _ _), fun y hy => ?_⟩, ?_⟩
    · rcases List.mem_cons.1 hy with rfl | hy
      · exact h1.trans (min_le_right _ _)
      · exact h2 y hy
    · rcases h3 with h3 | h3
      · rcases min_choice m z with h | h
        · exact .inl (h3.trans h)
        · exact .inr (by rw [h3, h]; simp)
      · exact .inr (by simp [h3])

lemma fold_max (l : List ℝ) : ∀ m : ℝ, (m ≤ l.foldl max m ∧ ∀ y ∈ l, y ≤ l.foldl max m) ∧
    (l.foldl max m = m ∨ l.foldl max m ∈ l) := by
  induction l with
  | nil => simp
  | cons z l ih =>
    intro m
    obtain ⟨⟨h1, h2⟩, h3⟩ := ih (max m z)
    simp only [List.foldl_cons]
    refine ⟨⟨(le_max_left _ _).trans h1, fun y hy => ?_⟩, ?_⟩
    · rcases List.mem_cons.1 hy with rfl | hy
      · exact (le_max_right _ _).trans h1
      · exact h2 y hy
    · rcases h3 with h3 | h3
      · rcases max_choice m z with h | h
        · exact .inl (h3.trans h)
        · exact .inr (by rw [h3, h]; simp)
      · exact .inr (by simp [h3])

lemma least_spec (x : ℝ) (l : List ℝ) : IsLeast {v | v ∈ x :: l} (least x l) := by
  obtain ⟨⟨h1, h2⟩, h3⟩ := fold_min l x
  refine ⟨?_, fun v hv => ?_⟩
  · rcases h3 with h | h
    · exact List.mem_cons.2 (.inl h)
    · exact List.mem_cons.2 (.inr h)
  · rcases List.mem_cons.1 hv with rfl | hv
    · exact h1
    · exact h2 v hv

lemma largest_spec (x : ℝ) (l : List ℝ) : IsGreatest {v | v ∈ x :: l} (largest x l) := by
  obtain ⟨⟨h1, h2⟩, h3⟩ := fold_max l x
  refine ⟨?_, fun v hv => ?_⟩
  · rcases h3 with h | h
    · exact List.mem_cons.2 (.inl h)
    · exact List.mem_cons.2 (.inr h)
  · rcases List.mem_cons.1 hv with rfl | hv
    · exact h1
    · exact h2 v hv

lemma resid_all (e : ℝ → List ℝ → ℝ) (p : Px) (l : List Px) (h : ∀ q ∈ p :: l, q.ierr ≠ 0) :
    residEnd e p l = some (e p.resid (l.map fun q => q.resid)) := by
  have : ∀ l : List Px, (∀ q ∈ l, q.ierr ≠ 0) → l.mapM shownResid = some (l.map fun q => q.resid) := by
    intro l
    induction l with
    | nil => intro _; rfl
    | cons q l ih =>
      intro h
      rw [List.mapM_cons, ih fun r hr => h r (by simp [hr]), shownResid, if_neg (h q (by simp))]
      rfl
  rw [residEnd, this _ h]
  rfl

lemma resid_none (e : ℝ → List ℝ → ℝ) (p : Px) (l : List Px) (h : ∃ q ∈ p :: l, q.ierr = 0) :
    residEnd e p l = none := by
  have : ∀ l : List Px, (∃ q ∈ l, q.ierr = 0) → l.mapM shownResid = none := by
    intro l
    induction l with
    | nil => simp
    | cons q l ih =>
      rintro ⟨r, hr, h0⟩
      rw [List.mapM_cons]
      rcases List.mem_cons.1 hr with rfl | hr
      · rw [shownResid, if_pos h0]
        rfl
      · rw [ih ⟨r, hr, h0⟩]
        cases shownResid q <;> rfl
  rw [residEnd, this _ h]
  rfl

/-- The values shown in the panels for data and model. -/
def shown (ps : List Px) : Set ℝ := {v | ∃ q ∈ ps, v = q.data ∨ v = q.data - q.resid}

/-- C162 (scales): if all pixels have weight, the scale goes from the least to the largest of all the values that the three
panels show. -/
theorem C162_scale_partial (p : Px) (l : List Px) (h : ∀ q ∈ p :: l, q.ierr ≠ 0) :
    IsLeast (shown (p :: l) ∪ {v | ∃ q ∈ p :: l, v = q.resid}) (showScale p l).1 ∧
    IsGreatest (shown (p :: l) ∪ {v | ∃ q ∈ p :: l, v = q.resid}) (showScale p l).2 := by
  have e : ∀ (g : Px → ℝ) (v : ℝ), v ∈ g p :: l.map g ↔ ∃ q ∈ p :: l, v = g q := by
    intro g v
    rw [← List.map_cons, List.mem_map]
    exact ⟨fun ⟨q, h1, h2⟩ => ⟨q, h1, h2.symm⟩, fun ⟨q, h1, h2⟩ => ⟨q, h1, h2.symm⟩⟩
  constructor
  · have a := least_spec p.data (l.map fun q => q.data)
    have b := least_spec (p.data - p.resid) (l.map fun q => q.data - q.resid)
    have c := least_spec p.resid (l.map fun q => q.resid)
    simp only [showScale, resid_all least p l h, min3]
    have ha := (e (fun q => q.data) _).1 a.1
    have hb := (e (fun q => q.data - q.resid) _).1 b.1
    have hc := (e (fun q => q.resid) _).1 c.1
    refine ⟨?_, ?_⟩
    · rcases min_choice (min (least p.data (l.map fun q => q.data)) (least (p.data - p.resid) (l.map fun q => q.data - q.resid)))
        (least p.resid (l.map fun q => q.resid)) with h1 | h1
      · rw [h1]
        rcases min_choice (least p.data (l.map fun q => q.data)) (least (p.data - p.resid) (l.map fun q => q.data - q.resid))
          with h2 | h2
        · rw [h2]
          obtain ⟨q, hq, hv⟩ := ha
          exact .inl ⟨q, hq, .inl hv⟩
        · rw [h2]
          obtain ⟨q, hq, hv⟩ := hb
          exact .inl ⟨q, hq, .inr hv⟩
      · rw [h1]
        exact .inr hc
    · rintro v (⟨q, hq, rfl | rfl⟩ | ⟨q, hq, rfl⟩)
      · exact (min_le_left _ _).trans ((min_le_left _ _).trans (a.2 ((e (fun q => q.data) _).2 ⟨q, hq, rfl⟩)))
      · exact (min_le_left _ _).trans ((min_le_right _ _).trans (b.2 ((e (fun q => q.data - q.resid) _).2 ⟨q, hq, rfl⟩)))
      · exact (min_le_right _ _).trans (c.2 ((e (fun q => q.resid) _).2 ⟨q, hq, rfl⟩))
  · have a := largest_spec p.data (l.map fun q => q.data)
    have b := largest_spec (p.data - p.resid) (l.map fun q => q.data - q.resid)
    have c := largest_spec p.resid (l.map fun q => q.resid)
    simp only [showScale, resid_all largest p l h, max3]
    have ha := (e (fun q => q.data) _).1 a.1
    have hb := (e (fun q => q.data - q.resid) _).1 b.1
    have hc := (e (fun q => q.resid) _).1 c.1
    refine ⟨?_, ?_⟩
    · rcases max_choice (max (largest p.data (l.map fun q => q.data)) (largest (p.data - p.resid) (l.map fun q => q.data - q.resid)))
        (largest p.resid (l.map fun q => q.resid)) with h1 | h1
      · rw [h1]
        rcases max_choice (largest p.data (l.map fun q => q.data)) (largest (p.data - p.resid) (l.map fun q => q.data - q.resid))
          with h2 | h2
        · rw [h2]
          obtain ⟨q, hq, hv⟩ := ha
          exact .inl ⟨q, hq, .inl hv⟩
        · rw [h2]
          obtain ⟨q, hq, hv⟩ := hb
          exact .inl ⟨q, hq, .inr hv⟩
      · rw [h1]
        exact .inr hc
    · rintro v (⟨q, hq, rfl | rfl⟩ | ⟨q, hq, rfl⟩)
      · exact (a.2 ((e (fun q => q.data) _).2 ⟨q, hq, rfl⟩)).trans ((le_max_left _ _).trans (le_max_left _ _))
      · exact (b.2 ((e (fun q => q.data - q.resid) _).2 ⟨q, hq, rfl⟩)).trans ((le_max_right _ _).trans (le_max_left _ _))
      · exact (c.2 ((e (fun q => q.resid) _).2 ⟨q, hq, rfl⟩)).trans (le_max_right _ _)

/-- C162 (scales): as soon as one pixel has no weight the residuals do not count: the scale is that of data and model. -/
theorem C162_scale_masked (p : Px) (l : List Px) (h : ∃ q ∈ p :: l, q.ierr = 0) :
    IsLeast (shown (p :: l)) (showScale p l).1 ∧ IsGreatest (shown (p :: l)) (showScale p l).2 := by
  have e : ∀ (g : Px → ℝ) (v : ℝ), v ∈ g p :: l.map g ↔ ∃ q ∈ p :: l, v = g q := by
    intro g v
    rw [← List.map_cons, List.mem_map]
    exact ⟨fun ⟨q, h1, h2⟩ => ⟨q, h1, h2.symm⟩, fun ⟨q, h1, h2⟩ => ⟨q, h1, h2.symm⟩⟩
  constructor
  · have a := least_spec p.data (l.map fun q => q.data)
    have b := least_spec (p.data - p.resid) (l.map fun q => q.data - q.resid)
    simp only [showScale, resid_none least p l h, min3]
    refine ⟨?_, ?_⟩
    · rcases min_choice (least p.data (l.map fun q => q.data)) (least (p.data - p.resid) (l.map fun q => q.data - q.resid))
        with h2 | h2
      · rw [h2]
        obtain ⟨q, hq, hv⟩ := (e (fun q => q.data) _).1 a.1
        exact ⟨q, hq, .inl hv⟩
      · rw [h2]
        obtain ⟨q, hq, hv⟩ := (e (fun q => q.data - q.resid) _).1 b.1
        exact ⟨q, hq, .inr hv⟩
    · rintro v ⟨q, hq, rfl | rfl⟩
      · exact (min_le_left _ _).trans (a.2 ((e (fun q => q.data) _).2 ⟨q, hq, rfl⟩))
      · exact (min_le_right _ _).trans (b.2 ((e (fun q => q.data - q.resid) _).2 ⟨q, hq, rfl⟩))
  · have a := largest_spec p.data (l.map fun q => q.data)
    have b := largest_spec (p.data - p.resid) (l.map fun q => q.data - q.resid)
    simp only [showScale, resid_none largest p l h, max3]
    refine ⟨?_, ?_⟩
    · rcases max_choice (largest p.data (l.map fun q => q.data)) (largest (p.data - p.resid) (l.map fun q => q.data - q.resid))
        with h2 | h2
      · rw [h2]
        obtain ⟨q, hq, hv⟩ := (e (fun q => q.data) _).1 a.1
        exact ⟨q, hq, .inl hv⟩
      · rw [h2]
        obtain ⟨q, hq, hv⟩ := (e (fun q => q.data - q.resid) _).1 b.1
        exact ⟨q, hq, .inr hv⟩
    · rintro v ⟨q, hq, rfl | rfl⟩
      · exact (a.2 ((e (fun q => q.data) _).2 ⟨q, hq, rfl⟩)).trans (le_max_left _ _)
      · exact (b.2 ((e (fun q => q.data - q.resid) _).2 ⟨q, hq, rfl⟩)).trans (le_max_right _ _)

/-- C162 (scales, refuted): a pixel with weight whose residual is shown above the end of the scale. -/
theorem C162_scale_refuted : ∃ (p : Px) (l : List Px), p.ierr ≠ 0 ∧ shownResid p = some 5 ∧ (showScale p l).2 < 5 := by
  refine ⟨⟨0, 5, 1⟩, [⟨0, 0, 0⟩], by norm_num, by rw [shownResid, if_neg (by norm_num)], ?_⟩
  obtain ⟨-, ⟨q, hq, hv⟩, -⟩ := C162_scale_masked ⟨0, 5, 1⟩ [⟨0, 0, 0⟩] ⟨⟨0, 0, 0⟩, by simp, rfl⟩
  rcases List.mem_cons.1 hq with rfl | hq
  · rcases hv with h | h <;> rw [h] <;> norm_num
  · rw [List.mem_singleton] at hq
    subst hq
    rcases hv with h | h <;> rw [h] <;> norm_num

end Forcepho.Demo.Figures
