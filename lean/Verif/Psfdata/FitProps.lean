import Verif.Psfdata.Fit
import Verif.Psfdata.Props

/-! # C161: the best fit of a mixture predicts what was fitted -/

set_option autoImplicit false

namespace Forcepho.Psfdata

open Classical Em

theorem foldl_max_le (l : List Nat) (a b : Nat) : l.foldl max a ≤ b ↔ a ≤ b ∧ ∀ x ∈ l, x ≤ b := by
  induction l generalizing a with
  | nil => simp
  | cons x t ih =>
    rw [List.foldl_cons, ih]
    simp only [List.mem_cons, forall_eq_or_imp, max_le_iff, and_assoc]

theorem width_eq (vs : List (List ℝ)) (n : Nat) (hn : 1 ≤ n) (h : ∀ v ∈ vs, v.length = n ∨ v.length = 1)
    (hx : ∃ v ∈ vs, v.length = n) : width vs = some n := by
  have e : (vs.map List.length).foldl max 1 = n := by
    apply le_antisymm
    · rw [foldl_max_le]
      refine ⟨hn, ?_⟩
      intro x hx'
      obtain ⟨v, hv, rfl⟩ := List.mem_map.1 hx'
      rcases h v hv with e | e <;> omega
    · obtain ⟨v, hv, he⟩ := hx
      have := ((foldl_max_le (vs.map List.length) 1 _).1 le_rfl).2 v.length (List.mem_map.2 ⟨v, hv, rfl⟩)
      omega
  unfold width
  simp only [e]
  rw [if_pos]
  rw [List.all_eq_true]
  intro v hv
  rcases h v hv with e | e <;> simp [e]

/-- The vector is the other one, or a number that is repeated. -/
def Spread (v u : List ℝ) : Prop := v = u ∨ ∃ c, v = [c] ∧ u = List.replicate u.length c

theorem spread_length (v u : List ℝ) (h : Spread v u) : v.length = u.length ∨ v.length = 1 := by
  rcases h with h | ⟨c, h, _⟩
  · exact Or.inl (by rw [h])
  · exact Or.inr (by rw [h]; rfl)

theorem spread_entry (v u : List ℝ) (h : Spread v u) (i : Nat) (hi : i < u.length) : entryAt v i = u[i] := by
  unfold entryAt
  rcases h with h | ⟨c, h, hu⟩
  · subst h
    by_cases h1 : v.length = 1
    · rw [if_pos h1]
      have hi0 : i = 0 := by omega
      subst hi0
      match v, h1 with
      | [_], _ => rfl
    · rw [if_neg h1, List.getD_eq_getElem?_getD, List.getElem?_eq_getElem hi]; rfl
  · subst h
    rw [if_pos (by rfl)]
    have : u[i]? = some c := by rw [hu, List.getElem?_replicate, if_pos hi]
    rw [List.getElem?_eq_getElem hi] at this
    injection this with this
    rw [this]; rfl

theorem predict_eq (d : Dict) (gs : List HG) (hne : gs ≠ []) (a bg : ℝ)
    (hk : ∀ e ∈ d, e.1 ∈ ["x", "y", "a", "weight", "sx", "q", "rho", "bg"])
    (hx : arg d "x" [0] = gs.map HG.x) (hy : Spread (arg d "y" [0]) (gs.map HG.y))
    (hw : Spread (arg d "weight" [1]) (gs.map HG.weight)) (hs : Spread (arg d "sx" [3]) (gs.map HG.sx))
    (hq : Spread (arg d "q" [3]) (gs.map HG.q)) (hr : Spread (arg d "rho" [0]) (gs.map HG.rho))
    (ha : arg d "a" [1] = [a]) (hb : (arg d "bg" [0]).headD 0 = bg) :
    predict d = .ok fun xp yp => prediction xp yp a bg gs := by
  have hall : (d.all fun e => predictionParams.contains e.1) = true := by
    rw [List.all_eq_true]
    intro e he
    rw [List.contains_iff_mem]
    exact hk e he
  have hn : 1 ≤ gs.length := List.length_pos_iff.2 hne
  have hwid : width [arg d "x" [0], arg d "y" [0], arg d "a" [1], arg d "weight" [1], arg d "sx" [3], arg d "q" [3],
      arg d "rho" [0]] = some gs.length := by
    apply width_eq _ _ hn
    · intro v hv
      simp only [List.mem_cons, List.not_mem_nil, or_false] at hv
      rcases hv with e | e | e | e | e | e | e
      · left; rw [e, hx, List.length_map]
      · rw [e]; simpa using spread_length _ _ hy
      · right; rw [e, ha]; rfl
      · rw [e]; simpa using spread_length _ _ hw
      · rw [e]; simpa using spread_length _ _ hs
      · rw [e]; simpa using spread_length _ _ hq
      · rw [e]; simpa using spread_length _ _ hr
    · exact ⟨arg d "x" [0], by simp, by rw [hx, List.length_map]⟩
  unfold predict
  rw [if_pos hall]
  simp only [hwid]
  congr 1
  funext xp yp
  unfold prediction
  rw [hb]
  congr 2
  apply List.ext_getElem
  · simp
  · intro i h1 h2
    rw [List.length_map] at h2
    have hix : Spread (arg d "x" [0]) (gs.map HG.x) := Or.inl hx
    rw [List.getElem_map, List.getElem_map, List.getElem_range,
      spread_entry _ _ hix i (by simpa using h2), spread_entry _ _ hy i (by simpa using h2),
      spread_entry _ _ hw i (by simpa using h2), spread_entry _ _ hs i (by simpa using h2),
      spread_entry _ _ hq i (by simpa using h2), spread_entry _ _ hr i (by simpa using h2), ha]
    simp [entryAt]

/-- C161 (prediction). With the vectors of some gaussians, or numbers that stand for all of them, and the defaults for what is
left out, the prediction is the sum of normal densities with their amplitudes, and the background. -/
theorem C161_prediction (d : Dict) (gs : List HG) (hne : gs ≠ []) (a bg : ℝ)
    (hk : ∀ e ∈ d, e.1 ∈ ["x", "y", "a", "weight", "sx", "q", "rho", "bg"])
    (hx : arg d "x" [0] = gs.map HG.x) (hy : Spread (arg d "y" [0]) (gs.map HG.y))
    (hw : Spread (arg d "weight" [1]) (gs.map HG.weight)) (hs : Spread (arg d "sx" [3]) (gs.map HG.sx))
    (hq : Spread (arg d "q" [3]) (gs.map HG.q)) (hr : Spread (arg d "rho" [0]) (gs.map HG.rho))
    (ha : arg d "a" [1] = [a]) (hb : (arg d "bg" [0]).headD 0 = bg) (hg : ∀ g ∈ gs, Shaped g) :
    ∃ f, predict d = .ok f ∧ ∀ xp yp, f xp yp = (gs.map fun g => a * g.weight * normalDensity (g.sx ^ 2) ((g.q * g.sx) ^ 2)
      (g.rho * g.sx * (g.q * g.sx)) (xp - g.x) (yp - g.y)).sum + bg := by
  refine ⟨_, predict_eq d gs hne a bg hk hx hy hw hs hq hr ha hb, ?_⟩
  intro xp yp
  unfold prediction
  congr 2
  apply List.map_congr_left
  intro g hm
  exact gaussAt_density (hg g hm) xp yp a

/-- A name that `psf_prediction` does not have stops the call; so do vectors of different lengths. -/
theorem C161_calls (d : Dict) (k : String) (v : List ℝ) (h : (k, v) ∈ d)
    (hk : k ∉ ["x", "y", "a", "weight", "sx", "q", "rho", "bg"]) : predict d = .error .keyword := by
  unfold predict
  rw [if_neg]
  intro hall
  rw [List.all_eq_true] at hall
  have := hall _ h
  rw [List.contains_iff_mem] at this
  exact hk this

/-- C161, refuted (the demonstration of psf_mix_hmc.py:191). Its call passes `sy`, which is not a parameter. -/
theorem C161_demo_refuted (x y sx sy a w rho : List ℝ) :
    predict [("x", x), ("y", y), ("sx", sx), ("sy", sy), ("a", a), ("weight", w), ("rho", rho)] = .error .keyword :=
  C161_calls _ "sy" sy (by simp) (by decide)

/-- The dictionary holds what was sampled. -/
theorem best_lookup (A : FitArgs) (v : String → List ℝ) (k : String) :
    lookup (best A v) k = if k ∈ sites A then some (v k) else none := by
  unfold lookup best
  induction sites A with
  | nil => rfl
  | cons s t ih =>
    rw [List.map_cons]
    by_cases h : s = k
    · subst h
      rw [List.find?_cons_of_pos (by simp), if_pos (by simp)]; rfl
    · rw [List.find?_cons_of_neg (by simpa using h), ih]
      by_cases hk : k ∈ t
      · rw [if_pos hk, if_pos (by simp [hk])]
      · rw [if_neg hk, if_neg (by simp [hk, Ne.symm h])]

theorem mem_sites (A : FitArgs) (k : String) : k ∈ sites A ↔
    (fixedAmplitude A.afix = none ∧ k = "a") ∨ (0 < A.maxbg ∧ k = "bg") ∨ (1 < A.ngauss ∧ k = "weight") ∨
    k ∈ ["x", "y", "rho", "sx", "q"] ∨ (0 < A.nneg ∧ k ∈ ["weight_m", "x_m", "y_m", "rho_m", "sx_m", "q_m"]) := by
  unfold sites
  rw [List.mem_append, List.mem_append, List.mem_append, List.mem_append]
  cases fixedAmplitude A.afix <;> by_cases h1 : 0 < A.maxbg <;> by_cases h2 : 1 < A.ngauss <;>
    by_cases h3 : 0 < A.nneg <;> simp [h1, h2, h3, or_assoc]

/-- The result of a call depends on its arguments only. -/
theorem predict_congr (d e : Dict) (hd : ∀ x ∈ d, x.1 ∈ ["x", "y", "a", "weight", "sx", "q", "rho", "bg"])
    (he : ∀ x ∈ e, x.1 ∈ ["x", "y", "a", "weight", "sx", "q", "rho", "bg"])
    (h : arg d "x" [0] = arg e "x" [0] ∧ arg d "y" [0] = arg e "y" [0] ∧ arg d "a" [1] = arg e "a" [1] ∧
      arg d "weight" [1] = arg e "weight" [1] ∧ arg d "sx" [3] = arg e "sx" [3] ∧ arg d "q" [3] = arg e "q" [3] ∧
      arg d "rho" [0] = arg e "rho" [0] ∧ arg d "bg" [0] = arg e "bg" [0]) : predict d = predict e := by
  have hc : ∀ l : Dict, (∀ x ∈ l, x.1 ∈ ["x", "y", "a", "weight", "sx", "q", "rho", "bg"]) →
      (l.all fun e => predictionParams.contains e.1) = true := by
    intro l hl
    rw [List.all_eq_true]
    intro x hx
    rw [List.contains_iff_mem]
    exact hl x hx
  obtain ⟨h1, h2, h3, h4, h5, h6, h7, h8⟩ := h
  unfold predict
  rw [if_pos (hc d hd), if_pos (hc e he), h1, h2, h3, h4, h5, h6, h7, h8]

/-- C161, partial (the image of the best sample). Without negative gaussians, and with the total amplitude free or one,
`psf_prediction(**best)` is the mean that was compared with the image: for all numbers of gaussians, with and without
background, whatever was sampled.
Missing: other amplitudes and negative gaussians, refuted below. -/
theorem C161_best_partial (A : FitArgs) (v : String → List ℝ) (hn : A.nneg = 0)
    (ha : A.afix = none ∨ A.afix = some 0 ∨ A.afix = some 1) : predict (best A v) = fitted A v := by
  have hfit : fitted A v = predict [("x", v "x"), ("y", v "y"),
      ("a", match fixedAmplitude A.afix with | some a => [a] | none => v "a"),
      ("weight", if 1 < A.ngauss then v "weight" else [1]), ("sx", v "sx"), ("q", v "q"), ("rho", v "rho"),
      ("bg", if 0 < A.maxbg then v "bg" else [0])] := by
    unfold fitted
    simp only [hn, lt_irrefl, if_false]
    cases predict [("x", v "x"), ("y", v "y"),
      ("a", match fixedAmplitude A.afix with | some a => [a] | none => v "a"),
      ("weight", if 1 < A.ngauss then v "weight" else [1]), ("sx", v "sx"), ("q", v "q"), ("rho", v "rho"),
      ("bg", if 0 < A.maxbg then v "bg" else [0])] <;> rfl
  rw [hfit]
  apply predict_congr
  · intro x hx
    obtain ⟨k, hk, rfl⟩ := List.mem_map.1 hx
    rw [mem_sites] at hk
    rcases hk with ⟨_, h⟩ | ⟨_, h⟩ | ⟨_, h⟩ | h | ⟨h, _⟩
    · simp [h]
    · simp [h]
    · simp [h]
    · simp only [List.mem_cons, List.not_mem_nil, or_false] at h
      rcases h with h | h | h | h | h <;> simp [h]
    · omega
  · intro x hx
    simp only [List.mem_cons, List.not_mem_nil, or_false] at hx
    rcases hx with h | h | h | h | h | h | h | h <;> simp [h]
  · simp only [arg, best_lookup, mem_sites]
    refine ⟨by simp [lookup], by simp [lookup], ?_, ?_, by simp [lookup], by simp [lookup], by simp [lookup], ?_⟩
    · rcases ha with h | h | h <;> simp [h, fixedAmplitude, lookup, Option.filter]
    · by_cases h : 1 < A.ngauss <;> simp [h, lookup]
    · by_cases h : 0 < A.maxbg <;> simp [h, lookup]

example : (⟨none, 0.1, 3, 0⟩ : FitArgs).nneg = 0 ∧ sites ⟨none, 0.1, 3, 0⟩ = ["a", "bg", "weight", "x", "y", "rho", "sx", "q"] := by
  refine ⟨rfl, ?_⟩
  have : (0 : ℝ) < 0.1 := by norm_num
  simp [sites, fixedAmplitude, this]

/-- C161, refuted (fixed amplitude). When the total amplitude was fixed to another number, the image of the best sample is
the image for the amplitude one, so that the fitted mean above the background is `a` times the prediction. -/
theorem C161_amplitude_refuted (A : FitArgs) (v : String → List ℝ) (a : ℝ) (ha : A.afix = some a) (h0 : a ≠ 0)
    (hn : A.nneg = 0) (gs : List HG) (hne : gs ≠ []) (hx : v "x" = gs.map HG.x) (hy : Spread (v "y") (gs.map HG.y))
    (hw : 1 < A.ngauss → v "weight" = gs.map HG.weight) (hw1 : A.ngauss ≤ 1 → ∀ g ∈ gs, g.weight = 1)
    (hs : Spread (v "sx") (gs.map HG.sx)) (hq : Spread (v "q") (gs.map HG.q)) (hr : Spread (v "rho") (gs.map HG.rho)) :
    ∃ f g, fitted A v = .ok f ∧ predict (best A v) = .ok g ∧ ∃ bg : ℝ, ∀ xp yp, f xp yp - bg = a * (g xp yp - bg) := by
  have hf : fixedAmplitude A.afix = some a := by rw [ha]; simp [fixedAmplitude, h0]
  have hlin : ∀ (xp yp b : ℝ) (g : HG), gaussAt xp yp b g = b * gaussAt xp yp 1 g := by
    intro xp yp b g; unfold gaussAt; dsimp only; ring
  have hwt : Spread (if 1 < A.ngauss then v "weight" else [1]) (gs.map HG.weight) := by
    by_cases h : 1 < A.ngauss
    · rw [if_pos h, hw h]; exact Or.inl rfl
    · rw [if_neg h]
      refine Or.inr ⟨1, rfl, ?_⟩
      apply List.eq_replicate_of_mem
      intro b hb
      obtain ⟨g, hg, rfl⟩ := List.mem_map.1 hb
      exact hw1 (by omega) g hg
  have e1 := predict_eq [("x", v "x"), ("y", v "y"), ("a", [a]), ("weight", if 1 < A.ngauss then v "weight" else [1]),
    ("sx", v "sx"), ("q", v "q"), ("rho", v "rho"), ("bg", if 0 < A.maxbg then v "bg" else [0])] gs hne a
    ((if 0 < A.maxbg then v "bg" else [0]).headD 0)
    (by
      intro x hx
      simp only [List.mem_cons, List.not_mem_nil, or_false] at hx
      rcases hx with h | h | h | h | h | h | h | h <;> simp [h])
    (by simpa [arg, lookup] using hx) (by simpa [arg, lookup] using hy) (by simpa [arg, lookup] using hwt)
    (by simpa [arg, lookup] using hs) (by simpa [arg, lookup] using hq) (by simpa [arg, lookup] using hr)
    (by simp [arg, lookup]) (by simp [arg, lookup])
  have e2 := predict_eq (best A v) gs hne 1 ((if 0 < A.maxbg then v "bg" else [0]).headD 0)
    (by
      intro x hx
      obtain ⟨k, hk, rfl⟩ := List.mem_map.1 hx
      rw [mem_sites] at hk
      rcases hk with ⟨_, h⟩ | ⟨_, h⟩ | ⟨_, h⟩ | h | ⟨h, _⟩
      · simp [h]
      · simp [h]
      · simp [h]
      · simp only [List.mem_cons, List.not_mem_nil, or_false] at h
        rcases h with h | h | h | h | h <;> simp [h]
      · omega)
    (by simpa [arg, best_lookup, mem_sites] using hx) (by simpa [arg, best_lookup, mem_sites] using hy)
    (by
      have : arg (best A v) "weight" [1] = if 1 < A.ngauss then v "weight" else [1] := by
        simp only [arg, best_lookup, mem_sites]
        by_cases h : 1 < A.ngauss <;> simp [h]
      rw [this]; exact hwt)
    (by simpa [arg, best_lookup, mem_sites] using hs) (by simpa [arg, best_lookup, mem_sites] using hq)
    (by simpa [arg, best_lookup, mem_sites] using hr) (by simp [arg, best_lookup, mem_sites, hf])
    (by
      simp only [arg, best_lookup, mem_sites]
      by_cases h : 0 < A.maxbg <;> simp [h])
  refine ⟨fun xp yp => prediction xp yp a ((if 0 < A.maxbg then v "bg" else [0]).headD 0) gs, _, ?_, e2,
    (if 0 < A.maxbg then v "bg" else [0]).headD 0, ?_⟩
  · unfold fitted
    simp only [hf]
    rw [e1]
    simp only [hn, lt_irrefl, if_false]
  · intro xp yp
    simp only [prediction, add_sub_cancel_right]
    rw [← List.sum_map_mul_left]
    congr 1
    apply List.map_congr_left
    intro g _
    exact hlin xp yp a g

/-- C161, refuted (negative gaussians). With negative gaussians `psf_prediction(**best)` raises. -/
theorem C161_negative_refuted (A : FitArgs) (v : String → List ℝ) (hn : 0 < A.nneg) :
    predict (best A v) = .error .keyword :=
  C161_calls _ "x_m" (v "x_m")
    (List.mem_map.2 ⟨"x_m", (mem_sites A "x_m").2 (by simp [hn]), rfl⟩) (by decide)

/-! ## The best sample -/

theorem argminFrom_spec (t : List ℝ) : ∀ (pre : List ℝ) (m : ℝ) (j : Nat), pre[j]? = some m →
    (∀ x ∈ pre, m ≤ x) → (∀ (i : Nat) (x : ℝ), i < j → pre[i]? = some x → m < x) →
    ∃ m', (pre ++ t)[argminFrom t pre.length m j]? = some m' ∧ (∀ x ∈ pre ++ t, m' ≤ x) ∧
      ∀ (i : Nat) (x : ℝ), i < argminFrom t pre.length m j → (pre ++ t)[i]? = some x → m' < x := by
  induction t with
  | nil => intro pre m j h1 h2 h3; exact ⟨m, by simpa [argminFrom] using h1, by simpa using h2, by simpa [argminFrom] using h3⟩
  | cons x t ih =>
    intro pre m j h1 h2 h3
    have hj : j < pre.length := (List.getElem?_eq_some_iff.1 h1).1
    rw [show pre ++ x :: t = (pre ++ [x]) ++ t by simp]
    unfold argminFrom
    by_cases hx : x < m
    · rw [if_pos hx]
      have := ih (pre ++ [x]) x pre.length (by simp)
        (by
          intro y hy
          rcases List.mem_append.1 hy with hy | hy
          · exact hx.le.trans (h2 y hy)
          · rw [List.mem_singleton.1 hy])
        (by
          intro i y hi hy
          rw [List.getElem?_append_left hi] at hy
          exact lt_of_lt_of_le hx (h2 y (List.mem_of_getElem? hy)))
      rwa [List.length_append, List.length_singleton] at this
    · rw [if_neg hx]
      have := ih (pre ++ [x]) m j (by rw [List.getElem?_append_left hj]; exact h1)
        (by
          intro y hy
          rcases List.mem_append.1 hy with hy | hy
          · exact h2 y hy
          · rw [List.mem_singleton.1 hy]; exact not_lt.1 hx)
        (by
          intro i y hi hy
          rw [List.getElem?_append_left (by omega)] at hy
          exact h3 i y hi hy)
      rwa [List.length_append, List.length_singleton] at this

/-- C161 (best sample). When all energies are numbers, the best sample is the first with the least energy; when some are not,
it is the first of those. -/
theorem C161_argmin :
    (∀ xs : List ℝ, xs ≠ [] → ∃ j m, argmin (xs.map some) = some j ∧ xs[j]? = some m ∧ (∀ x ∈ xs, m ≤ x) ∧
      ∀ (i : Nat) (x : ℝ), i < j → xs[i]? = some x → m < x) ∧
    (∀ (xs : List ℝ) (ys : List (Option ℝ)), argmin (xs.map some ++ none :: ys) = some xs.length) := by
  constructor
  · intro xs hne
    match xs, hne with
    | x :: t, _ =>
      obtain ⟨m, h1, h2, h3⟩ := argminFrom_spec t [x] x 0 rfl (by simp) (by intro i _ h; omega)
      refine ⟨argminFrom t 1 x 0, m, ?_, h1, h2, h3⟩
      have hf : ((x :: t).map some).findIdx? Option.isNone = none := by
        rw [List.findIdx?_eq_none_iff]
        intro y hy
        obtain ⟨z, _, rfl⟩ := List.mem_map.1 hy
        rfl
      unfold argmin
      rw [hf]
      have hm : ((x :: t).map some).filterMap id = x :: t := by
        rw [List.filterMap_map]
        exact List.filterMap_some
      rw [hm]
  · intro xs ys
    have hf : (xs.map some ++ none :: ys).findIdx? Option.isNone = some xs.length := by
      induction xs with
      | nil => rfl
      | cons x t ih =>
        rw [List.map_cons, List.cons_append, List.findIdx?_cons, if_neg (by simp), ih]
        simp
    unfold argmin
    rw [hf]

/-! ## From the fit to the array -/

/-- The values sampled are the vectors of two lists of gaussians. -/
structure Draws (v : String → List ℝ) (gs ms : List HG) : Prop where
  weight : v "weight" = gs.map HG.weight
  x : v "x" = gs.map HG.x
  y : v "y" = gs.map HG.y
  sx : v "sx" = gs.map HG.sx
  q : v "q" = gs.map HG.q
  rho : v "rho" = gs.map HG.rho
  weight_m : v "weight_m" = ms.map HG.weight
  x_m : v "x_m" = ms.map HG.x
  y_m : v "y_m" = ms.map HG.y
  sx_m : v "sx_m" = ms.map HG.sx
  q_m : v "q_m" = ms.map HG.q
  rho_m : v "rho_m" = ms.map HG.rho

theorem draws_fit (v : String → List ℝ) (gs ms : List HG) (h : Draws v gs ms) (fix : Bool) (a maxbg : ℝ)
    (hg : 2 ≤ gs.length) (ha : fix = true → a ≠ 0) (hva : fix = false → v "a" = [a]) :
    fitted ⟨if fix then some a else none, maxbg, gs.length, ms.length⟩ v = .ok fun xp yp =>
      prediction xp yp a ((if 0 < maxbg then v "bg" else [0]).headD 0) gs -
        (if 0 < ms.length then prediction xp yp 1 0 ms else 0) := by
  have hne : gs ≠ [] := by intro h0; rw [h0] at hg; simp at hg
  have e1 := predict_eq [("x", v "x"), ("y", v "y"), ("a", [a]), ("weight", v "weight"),
    ("sx", v "sx"), ("q", v "q"), ("rho", v "rho"), ("bg", if 0 < maxbg then v "bg" else [0])] gs hne a
    ((if 0 < maxbg then v "bg" else [0]).headD 0)
    (by
      intro x hx
      simp only [List.mem_cons, List.not_mem_nil, or_false] at hx
      rcases hx with h | h | h | h | h | h | h | h <;> simp [h])
    (by simpa [arg, lookup] using h.x) (Or.inl (by simpa [arg, lookup] using h.y))
    (Or.inl (by simpa [arg, lookup] using h.weight)) (Or.inl (by simpa [arg, lookup] using h.sx))
    (Or.inl (by simpa [arg, lookup] using h.q)) (Or.inl (by simpa [arg, lookup] using h.rho))
    (by simp [arg, lookup]) (by simp [arg, lookup])
  have htot : fitted ⟨if fix then some a else none, maxbg, gs.length, ms.length⟩ v =
      match predict [("x", v "x"), ("y", v "y"), ("a", [a]), ("weight", v "weight"),
        ("sx", v "sx"), ("q", v "q"), ("rho", v "rho"), ("bg", if 0 < maxbg then v "bg" else [0])] with
      | .error e => .error e
      | .ok f =>
        if 0 < ms.length then
          match predict [("x", v "x_m"), ("y", v "y_m"), ("a", [1]), ("weight", v "weight_m"), ("sx", v "sx_m"),
              ("q", v "q_m"), ("rho", v "rho_m")] with
          | .error e => .error e
          | .ok g => .ok fun xp yp => f xp yp - g xp yp
        else .ok f := by
    cases fix with
    | true =>
      have hf : fixedAmplitude (some a) = some a := by simp [fixedAmplitude, Option.filter, ha rfl]
      simp only [fitted, if_true, hf, show 1 < gs.length by omega]
      rfl
    | false =>
      have hf : fixedAmplitude none = none := rfl
      simp only [fitted, Bool.false_eq_true, if_false, hf, show 1 < gs.length by omega, if_true, hva rfl]
      rfl
  rw [htot, e1]
  simp only
  by_cases hm : 0 < ms.length
  · have hme : ms ≠ [] := List.length_pos_iff.1 hm
    have e2 := predict_eq [("x", v "x_m"), ("y", v "y_m"), ("a", [1]), ("weight", v "weight_m"),
      ("sx", v "sx_m"), ("q", v "q_m"), ("rho", v "rho_m")] ms hme 1 0
      (by
        intro x hx
        simp only [List.mem_cons, List.not_mem_nil, or_false] at hx
        rcases hx with h | h | h | h | h | h | h <;> simp [h])
      (by simpa [arg, lookup] using h.x_m) (Or.inl (by simpa [arg, lookup] using h.y_m))
      (Or.inl (by simpa [arg, lookup] using h.weight_m)) (Or.inl (by simpa [arg, lookup] using h.sx_m))
      (Or.inl (by simpa [arg, lookup] using h.q_m)) (Or.inl (by simpa [arg, lookup] using h.rho_m))
      (by simp [arg, lookup]) (by simp [arg, lookup])
    rw [if_pos hm, e2]
    simp only [if_pos hm]
  · rw [if_neg hm]
    simp only [if_neg hm, sub_zero]

/-- The dictionary of `fit_image`, without the order of its keys: what each key holds. -/
theorem fitImage_eq (v : String → List ℝ) (fix : Bool) (a maxbg : ℝ) (n m : Nat) (hn : 2 ≤ n)
    (ha : fix = true → a ≠ 0) (hva : fix = false → v "a" = [a]) :
    fitImage fix a maxbg n m v =
      (if fix then [] else [("a", [a])]) ++ (if 0 < maxbg then [("bg", v "bg")] else []) ++
      [("weight", v "weight"), ("x", v "x"), ("y", v "y"), ("rho", v "rho"), ("sx", v "sx"), ("q", v "q")] ++
      (if 0 < m then [("weight_m", v "weight_m"), ("x_m", v "x_m"), ("y_m", v "y_m"), ("rho_m", v "rho_m"),
        ("sx_m", v "sx_m"), ("q_m", v "q_m")] else []) ++ (if fix then [("a", [a])] else []) := by
  have h1 : 1 < n := by omega
  cases fix with
  | true =>
    have hf : fixedAmplitude (some a) = some a := by simp [fixedAmplitude, Option.filter, ha rfl]
    by_cases h2 : 0 < maxbg <;> by_cases h3 : 0 < m <;>
      simp [fitImage, put, best, sites, hf, h1, h2, h3, lookup]
  | false =>
    have hf : fixedAmplitude none = none := rfl
    by_cases h2 : 0 < maxbg <;> by_cases h3 : 0 < m <;>
      simp [fitImage, best, sites, hf, h1, h2, h3, hva rfl]

theorem rectify_zero (v : String → List ℝ) (gs : List HG) (h : Draws v gs []) (fix : Bool) (a maxbg : ℝ)
    (hg : 2 ≤ gs.length) (ha : fix = true → a ≠ 0) (hva : fix = false → v "a" = [a]) :
    ∃ p, rectifyDict (fitImage fix a maxbg gs.length 0 v) = .ok (p, fun xp yp =>
      prediction xp yp a ((if 0 < maxbg then v "bg" else [0]).headD 0) gs) ∧ predict p = .ok (fun xp yp =>
      prediction xp yp a ((if 0 < maxbg then v "bg" else [0]).headD 0) gs) ∧ convertReads p = .ok () := by
  have hne : gs ≠ [] := by intro h0; rw [h0] at hg; simp at hg
  rw [fitImage_eq v fix a maxbg gs.length 0 hg ha hva]
  generalize hd : (if fix then [] else [("a", [a])]) ++ (if 0 < maxbg then [("bg", v "bg")] else []) ++
      [("weight", v "weight"), ("x", v "x"), ("y", v "y"), ("rho", v "rho"), ("sx", v "sx"), ("q", v "q")] ++
      (if 0 < 0 then [("weight_m", v "weight_m"), ("x_m", v "x_m"), ("y_m", v "y_m"), ("rho_m", v "rho_m"),
        ("sx_m", v "sx_m"), ("q_m", v "q_m")] else []) ++ (if fix then [("a", [a])] else []) = d
  have hm : (d.filterMap fun e => (negName e.1).map fun k => (k, e.2)) = [] := by
    rw [← hd]
    cases fix <;> by_cases h2 : 0 < maxbg <;> simp [h2, negName]
  have hp : (d.filter fun e => (negName e.1).isNone) = d := by
    rw [← hd]
    cases fix <;> by_cases h2 : 0 < maxbg <;> simp [h2, negName]
  have e1 := predict_eq d gs hne a ((if 0 < maxbg then v "bg" else [0]).headD 0)
    (by
      intro x hx
      rw [← hd] at hx
      cases fix <;> by_cases h2 : 0 < maxbg <;> simp [h2] at hx <;> aesop)
    (by rw [← hd, ← h.x]; cases fix <;> by_cases h2 : 0 < maxbg <;> simp [h2, arg, lookup])
    (Or.inl (by rw [← hd, ← h.y]; cases fix <;> by_cases h2 : 0 < maxbg <;> simp [h2, arg, lookup]))
    (Or.inl (by rw [← hd, ← h.weight]; cases fix <;> by_cases h2 : 0 < maxbg <;> simp [h2, arg, lookup]))
    (Or.inl (by rw [← hd, ← h.sx]; cases fix <;> by_cases h2 : 0 < maxbg <;> simp [h2, arg, lookup]))
    (Or.inl (by rw [← hd, ← h.q]; cases fix <;> by_cases h2 : 0 < maxbg <;> simp [h2, arg, lookup]))
    (Or.inl (by rw [← hd, ← h.rho]; cases fix <;> by_cases h2 : 0 < maxbg <;> simp [h2, arg, lookup]))
    (by rw [← hd]; cases fix <;> by_cases h2 : 0 < maxbg <;> simp [h2, arg, lookup])
    (by rw [← hd]; cases fix <;> by_cases h2 : 0 < maxbg <;> simp [h2, arg, lookup])
  refine ⟨d, ?_, e1, ?_⟩
  · unfold rectifyDict
    simp only [hm, hp, e1]
    rfl
  · rw [← hd]
    cases fix <;> by_cases h2 : 0 < maxbg <;> simp [h2, convertReads, lookup]

set_option maxHeartbeats 1000000 in
theorem rectify_neg (v : String → List ℝ) (gs ms : List HG) (h : Draws v gs ms) (fix : Bool) (a maxbg : ℝ)
    (hg : 2 ≤ gs.length) (hms : ms ≠ []) (ha : fix = true → a ≠ 0) (hva : fix = false → v "a" = [a]) :
    ∃ p, rectifyDict (fitImage fix a maxbg gs.length ms.length v) = .ok (p, fun xp yp =>
      prediction xp yp a ((if 0 < maxbg then v "bg" else [0]).headD 0) gs - prediction xp yp 1 0 ms) ∧
      predict p = .ok (fun xp yp => prediction xp yp 1 ((if 0 < maxbg then v "bg" else [0]).headD 0)
        ((gs.map fun g => { g with weight := g.weight * a }) ++ ms.map fun g => { g with weight := g.weight * (-1) })) ∧
      convertReads p = .ok () := by
  have hne : gs ≠ [] := by intro h0; rw [h0] at hg; simp at hg
  have hm0 : 0 < ms.length := List.length_pos_iff.2 hms
  rw [fitImage_eq v fix a maxbg gs.length ms.length hg ha hva]
  have hm : (((if fix then [] else [("a", [a])]) ++ (if 0 < maxbg then [("bg", v "bg")] else []) ++
      [("weight", v "weight"), ("x", v "x"), ("y", v "y"), ("rho", v "rho"), ("sx", v "sx"), ("q", v "q")] ++
      (if 0 < ms.length then [("weight_m", v "weight_m"), ("x_m", v "x_m"), ("y_m", v "y_m"), ("rho_m", v "rho_m"),
        ("sx_m", v "sx_m"), ("q_m", v "q_m")] else []) ++ (if fix then [("a", [a])] else [])).filterMap
        fun e => (negName e.1).map fun k => (k, e.2)) =
      [("weight", v "weight_m"), ("x", v "x_m"), ("y", v "y_m"), ("rho", v "rho_m"), ("sx", v "sx_m"), ("q", v "q_m")] := by
    cases fix <;> by_cases h2 : 0 < maxbg <;> simp [h2, hm0, negName]
  have hp : (((if fix then [] else [("a", [a])]) ++ (if 0 < maxbg then [("bg", v "bg")] else []) ++
      [("weight", v "weight"), ("x", v "x"), ("y", v "y"), ("rho", v "rho"), ("sx", v "sx"), ("q", v "q")] ++
      (if 0 < ms.length then [("weight_m", v "weight_m"), ("x_m", v "x_m"), ("y_m", v "y_m"), ("rho_m", v "rho_m"),
        ("sx_m", v "sx_m"), ("q_m", v "q_m")] else []) ++ (if fix then [("a", [a])] else [])).filter
        fun e => (negName e.1).isNone) =
      (if fix then [] else [("a", [a])]) ++ (if 0 < maxbg then [("bg", v "bg")] else []) ++
      [("weight", v "weight"), ("x", v "x"), ("y", v "y"), ("rho", v "rho"), ("sx", v "sx"), ("q", v "q")] ++
      (if fix then [("a", [a])] else []) := by
    cases fix <;> by_cases h2 : 0 < maxbg <;> simp [h2, hm0, negName]
  have e1 := predict_eq ((if fix then [] else [("a", [a])]) ++ (if 0 < maxbg then [("bg", v "bg")] else []) ++
      [("weight", v "weight"), ("x", v "x"), ("y", v "y"), ("rho", v "rho"), ("sx", v "sx"), ("q", v "q")] ++
      (if fix then [("a", [a])] else [])) gs hne a ((if 0 < maxbg then v "bg" else [0]).headD 0)
    (by
      intro x hx
      cases fix <;> by_cases h2 : 0 < maxbg <;> simp [h2] at hx <;> aesop)
    (by rw [← h.x]; cases fix <;> by_cases h2 : 0 < maxbg <;> simp [h2, arg, lookup])
    (Or.inl (by rw [← h.y]; cases fix <;> by_cases h2 : 0 < maxbg <;> simp [h2, arg, lookup]))
    (Or.inl (by rw [← h.weight]; cases fix <;> by_cases h2 : 0 < maxbg <;> simp [h2, arg, lookup]))
    (Or.inl (by rw [← h.sx]; cases fix <;> by_cases h2 : 0 < maxbg <;> simp [h2, arg, lookup]))
    (Or.inl (by rw [← h.q]; cases fix <;> by_cases h2 : 0 < maxbg <;> simp [h2, arg, lookup]))
    (Or.inl (by rw [← h.rho]; cases fix <;> by_cases h2 : 0 < maxbg <;> simp [h2, arg, lookup]))
    (by cases fix <;> by_cases h2 : 0 < maxbg <;> simp [h2, arg, lookup])
    (by cases fix <;> by_cases h2 : 0 < maxbg <;> simp [h2, arg, lookup])
  have e2 := predict_eq [("weight", v "weight_m"), ("x", v "x_m"), ("y", v "y_m"), ("rho", v "rho_m"), ("sx", v "sx_m"),
      ("q", v "q_m")] ms hms 1 0
    (by
      intro x hx
      simp at hx
      aesop)
    (by simpa [arg, lookup] using h.x_m) (Or.inl (by simpa [arg, lookup] using h.y_m))
    (Or.inl (by simpa [arg, lookup] using h.weight_m)) (Or.inl (by simpa [arg, lookup] using h.sx_m))
    (Or.inl (by simpa [arg, lookup] using h.q_m)) (Or.inl (by simpa [arg, lookup] using h.rho_m))
    (by simp [arg, lookup]) (by simp [arg, lookup])
  generalize hp' : (if fix then [] else [("a", [(1 : ℝ)])]) ++ (if 0 < maxbg then [("bg", v "bg")] else []) ++
      [("weight", (v "weight").map (· * a) ++ (v "weight_m").map (· * (-1))), ("x", v "x" ++ v "x_m"),
        ("y", v "y" ++ v "y_m"), ("rho", v "rho" ++ v "rho_m"), ("sx", v "sx" ++ v "sx_m"), ("q", v "q" ++ v "q_m")] ++
      (if fix then [("a", [(1 : ℝ)])] else []) = p'
  have hfold : [("weight", v "weight_m"), ("x", v "x_m"), ("y", v "y_m"), ("rho", v "rho_m"), ("sx", v "sx_m"),
      ("q", v "q_m")].foldlM absorb ((if fix then [] else [("a", [a])]) ++ (if 0 < maxbg then [("bg", v "bg")] else []) ++
      [("weight", v "weight"), ("x", v "x"), ("y", v "y"), ("rho", v "rho"), ("sx", v "sx"), ("q", v "q")] ++
      (if fix then [("a", [a])] else [])) = Except.ok p' := by
    rw [← hp']
    cases fix <;> by_cases h2 : 0 < maxbg <;>
      simp [h2, absorb, lookup, put, bind, Except.bind, pure, Except.pure]
  have e3 := predict_eq p' ((gs.map fun g => { g with weight := g.weight * a }) ++
      ms.map fun g => { g with weight := g.weight * (-1) }) (by simp [hne]) 1 ((if 0 < maxbg then v "bg" else [0]).headD 0)
    (by
      intro x hx
      rw [← hp'] at hx
      cases fix <;> by_cases h2 : 0 < maxbg <;> simp [h2] at hx <;> aesop)
    (by rw [← hp', h.x, h.x_m]; cases fix <;> by_cases h2 : 0 < maxbg <;> simp [h2, arg, lookup, Function.comp_def])
    (Or.inl (by rw [← hp', h.y, h.y_m]; cases fix <;> by_cases h2 : 0 < maxbg <;> simp [h2, arg, lookup, Function.comp_def]))
    (Or.inl (by rw [← hp', h.weight, h.weight_m]; cases fix <;> by_cases h2 : 0 < maxbg <;>
      simp [h2, arg, lookup, Function.comp_def]))
    (Or.inl (by rw [← hp', h.sx, h.sx_m]; cases fix <;> by_cases h2 : 0 < maxbg <;> simp [h2, arg, lookup, Function.comp_def]))
    (Or.inl (by rw [← hp', h.q, h.q_m]; cases fix <;> by_cases h2 : 0 < maxbg <;> simp [h2, arg, lookup, Function.comp_def]))
    (Or.inl (by rw [← hp', h.rho, h.rho_m]; cases fix <;> by_cases h2 : 0 < maxbg <;>
      simp [h2, arg, lookup, Function.comp_def]))
    (by rw [← hp']; cases fix <;> by_cases h2 : 0 < maxbg <;> simp [h2, arg, lookup])
    (by rw [← hp']; cases fix <;> by_cases h2 : 0 < maxbg <;> simp [h2, arg, lookup])
  refine ⟨p', ?_, e3, ?_⟩
  · unfold rectifyDict
    simp only [hm, hp, e1, e2, hfold]
    rfl
  · rw [← hp']
    cases fix <;> by_cases h2 : 0 < maxbg <;> simp [h2, convertReads, lookup]

/-- C161, partial (from the fit to the PSF). With two gaussians or more, any number of negative ones, the amplitude fixed or
free, with or without background: the model image that is shown is the mean of the fit, the dictionary that is written
predicts the same image, and has all that the conversion reads.
Missing: one gaussian, refuted below. -/
theorem C161_rectify_partial (v : String → List ℝ) (gs ms : List HG) (h : Draws v gs ms) (fix : Bool) (a maxbg : ℝ)
    (hg : 2 ≤ gs.length) (ha : fix = true → a ≠ 0) (hva : fix = false → v "a" = [a]) :
    ∃ p f, rectifyDict (fitImage fix a maxbg gs.length ms.length v) = .ok (p, f) ∧
      fitted ⟨if fix then some a else none, maxbg, gs.length, ms.length⟩ v = .ok f ∧
      predict p = .ok f ∧ convertReads p = .ok () := by
  have hfit := draws_fit v gs ms h fix a maxbg hg ha hva
  by_cases hms : ms = []
  · subst hms
    obtain ⟨p, h1, h2, h3⟩ := rectify_zero v gs h fix a maxbg hg ha hva
    refine ⟨p, _, h1, ?_, h2, h3⟩
    rw [hfit]
    simp
  · obtain ⟨p, h1, h2, h3⟩ := rectify_neg v gs ms h fix a maxbg hg hms ha hva
    refine ⟨p, _, h1, ?_, ?_, h3⟩
    · rw [hfit]
      simp only [List.length_pos_iff.2 hms, if_true]
    · rw [h2]
      congr 1
      funext xp yp
      have e := C97_rectify ⟨gs, a, (if 0 < maxbg then v "bg" else [0]).headD 0, ms⟩ xp yp
      simp only [rectify, if_neg hms] at e
      exact e.2.1.symm

/-- C161, refuted (one gaussian). A fit of one gaussian never becomes a PSF: with negative gaussians the model image fails for
the missing weights, and without them the conversion does. -/
theorem C161_single_refuted (v : String → List ℝ) (g : HG) (ms : List HG) (h : Draws v [g] ms) (fix : Bool) (a maxbg : ℝ)
    (hw : g.weight = 1) (ha : fix = true → a ≠ 0) (hva : fix = false → v "a" = [a]) :
    (ms ≠ [] → rectifyDict (fitImage fix a maxbg 1 ms.length v) = .error (.key "weight")) ∧
    (ms = [] → ∃ p f, rectifyDict (fitImage fix a maxbg 1 0 v) = .ok (p, f) ∧ convertReads p = .error (.key "weight")) := by
  have hfit : ∀ m : Nat, fitImage fix a maxbg 1 m v =
      (if fix then [] else [("a", [a])]) ++ (if 0 < maxbg then [("bg", v "bg")] else []) ++
      [("x", v "x"), ("y", v "y"), ("rho", v "rho"), ("sx", v "sx"), ("q", v "q")] ++
      (if 0 < m then [("weight_m", v "weight_m"), ("x_m", v "x_m"), ("y_m", v "y_m"), ("rho_m", v "rho_m"),
        ("sx_m", v "sx_m"), ("q_m", v "q_m")] else []) ++ (if fix then [("a", [a])] else []) := by
    intro m
    cases fix with
    | true =>
      have hf : fixedAmplitude (some a) = some a := by simp [fixedAmplitude, Option.filter, ha rfl]
      by_cases h2 : 0 < maxbg <;> by_cases h3 : 0 < m <;>
        simp [fitImage, put, best, sites, hf, h2, h3, lookup]
    | false =>
      have hf : fixedAmplitude none = none := rfl
      by_cases h2 : 0 < maxbg <;> by_cases h3 : 0 < m <;>
        simp [fitImage, best, sites, hf, h2, h3, hva rfl]
  have e1 := predict_eq ((if fix then [] else [("a", [a])]) ++ (if 0 < maxbg then [("bg", v "bg")] else []) ++
      [("x", v "x"), ("y", v "y"), ("rho", v "rho"), ("sx", v "sx"), ("q", v "q")] ++
      (if fix then [("a", [a])] else [])) [g] (by simp) a ((if 0 < maxbg then v "bg" else [0]).headD 0)
    (by
      intro x hx
      cases fix <;> by_cases h2 : 0 < maxbg <;> simp [h2] at hx <;> aesop)
    (by rw [← h.x]; cases fix <;> by_cases h2 : 0 < maxbg <;> simp [h2, arg, lookup])
    (Or.inl (by rw [← h.y]; cases fix <;> by_cases h2 : 0 < maxbg <;> simp [h2, arg, lookup]))
    (Or.inl (by cases fix <;> by_cases h2 : 0 < maxbg <;> simp [h2, arg, lookup, hw]))
    (Or.inl (by rw [← h.sx]; cases fix <;> by_cases h2 : 0 < maxbg <;> simp [h2, arg, lookup]))
    (Or.inl (by rw [← h.q]; cases fix <;> by_cases h2 : 0 < maxbg <;> simp [h2, arg, lookup]))
    (Or.inl (by rw [← h.rho]; cases fix <;> by_cases h2 : 0 < maxbg <;> simp [h2, arg, lookup]))
    (by cases fix <;> by_cases h2 : 0 < maxbg <;> simp [h2, arg, lookup])
    (by cases fix <;> by_cases h2 : 0 < maxbg <;> simp [h2, arg, lookup])
  constructor
  · intro hms
    have hm0 : 0 < ms.length := List.length_pos_iff.2 hms
    have e2 := predict_eq [("weight", v "weight_m"), ("x", v "x_m"), ("y", v "y_m"), ("rho", v "rho_m"), ("sx", v "sx_m"),
        ("q", v "q_m")] ms hms 1 0
      (by
        intro x hx
        simp at hx
        aesop)
      (by simpa [arg, lookup] using h.x_m) (Or.inl (by simpa [arg, lookup] using h.y_m))
      (Or.inl (by simpa [arg, lookup] using h.weight_m)) (Or.inl (by simpa [arg, lookup] using h.sx_m))
      (Or.inl (by simpa [arg, lookup] using h.q_m)) (Or.inl (by simpa [arg, lookup] using h.rho_m))
      (by simp [arg, lookup]) (by simp [arg, lookup])
    rw [hfit]
    unfold rectifyDict
    have hm : (((if fix then [] else [("a", [a])]) ++ (if 0 < maxbg then [("bg", v "bg")] else []) ++
        [("x", v "x"), ("y", v "y"), ("rho", v "rho"), ("sx", v "sx"), ("q", v "q")] ++
        (if 0 < ms.length then [("weight_m", v "weight_m"), ("x_m", v "x_m"), ("y_m", v "y_m"), ("rho_m", v "rho_m"),
          ("sx_m", v "sx_m"), ("q_m", v "q_m")] else []) ++ (if fix then [("a", [a])] else [])).filterMap
          fun e => (negName e.1).map fun k => (k, e.2)) =
        [("weight", v "weight_m"), ("x", v "x_m"), ("y", v "y_m"), ("rho", v "rho_m"), ("sx", v "sx_m"), ("q", v "q_m")] := by
      cases fix <;> by_cases h2 : 0 < maxbg <;> simp [h2, hm0, negName]
    have hp : (((if fix then [] else [("a", [a])]) ++ (if 0 < maxbg then [("bg", v "bg")] else []) ++
        [("x", v "x"), ("y", v "y"), ("rho", v "rho"), ("sx", v "sx"), ("q", v "q")] ++
        (if 0 < ms.length then [("weight_m", v "weight_m"), ("x_m", v "x_m"), ("y_m", v "y_m"), ("rho_m", v "rho_m"),
          ("sx_m", v "sx_m"), ("q_m", v "q_m")] else []) ++ (if fix then [("a", [a])] else [])).filter
          fun e => (negName e.1).isNone) =
        (if fix then [] else [("a", [a])]) ++ (if 0 < maxbg then [("bg", v "bg")] else []) ++
        [("x", v "x"), ("y", v "y"), ("rho", v "rho"), ("sx", v "sx"), ("q", v "q")] ++
        (if fix then [("a", [a])] else []) := by
      cases fix <;> by_cases h2 : 0 < maxbg <;> simp [h2, hm0, negName]
    simp only [hm, hp, e1, e2]
    cases fix <;> by_cases h2 : 0 < maxbg <;>
      simp [h2, absorb, lookup, bind, Except.bind]
  · intro _
    rw [hfit]
    refine ⟨(if fix then [] else [("a", [a])]) ++ (if 0 < maxbg then [("bg", v "bg")] else []) ++
        [("x", v "x"), ("y", v "y"), ("rho", v "rho"), ("sx", v "sx"), ("q", v "q")] ++
        (if fix then [("a", [a])] else []),
      fun xp yp => prediction xp yp a ((if 0 < maxbg then v "bg" else [0]).headD 0) [g], ?_, ?_⟩
    · unfold rectifyDict
      have hm : (((if fix then [] else [("a", [a])]) ++ (if 0 < maxbg then [("bg", v "bg")] else []) ++
          [("x", v "x"), ("y", v "y"), ("rho", v "rho"), ("sx", v "sx"), ("q", v "q")] ++
          (if 0 < 0 then [("weight_m", v "weight_m"), ("x_m", v "x_m"), ("y_m", v "y_m"), ("rho_m", v "rho_m"),
            ("sx_m", v "sx_m"), ("q_m", v "q_m")] else []) ++ (if fix then [("a", [a])] else [])).filterMap
            fun e => (negName e.1).map fun k => (k, e.2)) = [] := by
        cases fix <;> by_cases h2 : 0 < maxbg <;> simp [h2, negName]
      have hp : (((if fix then [] else [("a", [a])]) ++ (if 0 < maxbg then [("bg", v "bg")] else []) ++
          [("x", v "x"), ("y", v "y"), ("rho", v "rho"), ("sx", v "sx"), ("q", v "q")] ++
          (if 0 < 0 then [("weight_m", v "weight_m"), ("x_m", v "x_m"), ("y_m", v "y_m"), ("rho_m", v "rho_m"),
            ("sx_m", v "sx_m"), ("q_m", v "q_m")] else []) ++ (if fix then [("a", [a])] else [])).filter
            fun e => (negName e.1).isNone) =
          (if fix then [] else [("a", [a])]) ++ (if 0 < maxbg then [("bg", v "bg")] else []) ++
          [("x", v "x"), ("y", v "y"), ("rho", v "rho"), ("sx", v "sx"), ("q", v "q")] ++
          (if fix then [("a", [a])] else []) := by
        cases fix <;> by_cases h2 : 0 < maxbg <;> simp [h2, negName]
      simp only [hm, hp, e1]
      rfl
    · cases fix <;> by_cases h2 : 0 < maxbg <;> simp [h2, convertReads, lookup]

/-- Values that a sampler can return: two gaussians and a negative one. -/
example : ∃ v : String → List ℝ, Draws v [⟨0.7, 10, 10, 2, 1, 0⟩, ⟨0.3, 10, 10, 5, 1.1, 0.1⟩] [⟨0.1, 10, 10, 8, 1, 0⟩] :=
  ⟨fun k => if k = "weight" then [0.7, 0.3] else if k = "x" then [10, 10] else if k = "y" then [10, 10]
    else if k = "sx" then [2, 5] else if k = "q" then [1, 1.1] else if k = "rho" then [0, 0.1]
    else if k = "weight_m" then [0.1] else if k = "x_m" then [10] else if k = "y_m" then [10]
    else if k = "sx_m" then [8] else if k = "q_m" then [1] else [0],
    by constructor <;> simp⟩

end Forcepho.Psfdata
