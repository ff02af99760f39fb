import Verif.Profile.Mixture
import Verif.Profile.Spline

/-! # C172: files and figures of fitted Sersic profiles
(forcepho/mixtures/sersic_mix_oned.py `fit_profiles`, `plot_profiles`, `plot_cfd`, `amplitude_table`) -/

set_option autoImplicit false

namespace Forcepho.Profile.Files

open Filter Topology Forcepho.Profile.Spline

noncomputable section

/-- One row of the file (sersic_mix_oned.py:383-398): `amplitudes`, `model`, `truth`. -/
structure Row where
  amps : List ℝ
  model : ℝ → ℝ
  truth : ℝ → ℝ

/-- What is written for the logarithms `p` that the fit returned (sersic_mix_oned.py:386-398): the amplitudes are scaled to unit sum, the
model is that of `chisq` at the returned parameters. The profile with smoothing is left out (C157). -/
def row (p radii : List ℝ) (smoothing n rh : ℝ) : Row :=
  { amps := normalised p
    model := fun x => chisqMixture ((p.map Real.exp).zip radii) smoothing x
    truth := fun x => sersicProfile x n rh }

/-- The dotted curves of `plot_profiles` (sersic_mix_oned.py:207-212) at `x`, with `amps=np.exp(res.x)` (line 401). -/
def dotted (p radii : List ℝ) (smoothing x : ℝ) : List ℝ :=
  ((p.map Real.exp).zip radii).map fun c =>
    normalOned x (c.1 / (Real.sqrt (c.2 ^ 2 + smoothing ^ 2) * Real.sqrt (2 * Real.pi))) (Real.sqrt (c.2 ^ 2 + smoothing ^ 2))

/-- The lower panel of `plot_profiles` (sersic_mix_oned.py:199-203). -/
def residual (sersic gauss : ℝ) (smSersic : Option ℝ) : ℝ :=
  match smSersic with
  | some s => gauss / s - 1
  | none => gauss / sersic - 1

/-- The three curves of `plot_cfd` (sersic_mix_oned.py:248-254): Sersic, gaussians with smoothing, gaussians. -/
def cfdCurves (n rh : ℝ) (p radii : List ℝ) (smoothing x : ℝ) : ℝ × ℝ × ℝ :=
  let alpha := gammaincinv (2 * n) 0.5
  let xprime := (x / rh) ^ (1 / n) * alpha
  (gammainc (2 * n) xprime,
   gaussCfd ((p.map Real.exp).zip (radii.map fun r => Real.sqrt (r ^ 2 + smoothing ^ 2))) x,
   gaussCfd ((p.map Real.exp).zip radii) x)

/-- The weights of one line of `amplitude_table` (sersic_mix_oned.py:303). -/
def tableWeights (amps : List ℝ) : List ℝ := amps.map fun a => a / amps.sum

theorem sum_map_div {A : Type} (l : List A) (f : A → ℝ) (k : ℝ) : (l.map fun a => f a / k).sum = (l.map f).sum / k := by
  induction l with
  | nil => simp
  | cons a l ih => rw [List.map_cons, List.sum_cons, ih, List.map_cons, List.sum_cons, add_div]

theorem expSum_pos {p : List ℝ} (hp : p ≠ []) : 0 < (p.map Real.exp).sum := by
  apply List.sum_pos
  · intro a ha
    obtain ⟨q, _, rfl⟩ := List.mem_map.1 ha
    exact Real.exp_pos q
  · simpa using hp

theorem zip_normalised (p radii : List ℝ) :
    (normalised p).zip radii = ((p.map Real.exp).zip radii).map fun c => (c.1 / (p.map Real.exp).sum, c.2) := by
  unfold normalised
  rw [List.zip_map_left]
  rfl

theorem profile_scale (comps : List (ℝ × ℝ)) (eps f r k : ℝ) :
    profile (comps.map fun c => (c.1 / k, c.2)) eps f r = profile comps eps f r / k := by
  unfold profile
  rw [List.map_map, mul_div_assoc]
  congr 1
  rw [← sum_map_div]
  congr 1
  apply List.map_congr_left
  intro c _
  simp only [Function.comp]
  ring

/-- C172, model, partial. The model of the file is the profile of a galaxy with the amplitudes and radii of the file and its smoothing, times
the sum of the amplitudes before scaling. Missing: that factor is not in the file, and not one, see below. -/
theorem C172_model_partial (p radii : List ℝ) (smoothing n rh x : ℝ) (hp : p ≠ []) (hr : ∀ r ∈ radii, 0 < r ^ 2 + smoothing ^ 2) :
    (row p radii smoothing n rh).model x =
      (p.map Real.exp).sum * profile ((row p radii smoothing n rh).amps.zip radii) smoothing 1 x := by
  simp only [row]
  rw [zip_normalised, profile_scale, C100_fitted, mul_div_cancel₀ _ (expSum_pos hp).ne']
  intro c hc
  exact hr c.2 (List.of_mem_zip hc).2

/-- C172, refuted (model). If the amplitudes returned by the fit do not add up to one, the model of the file is at no radius the profile of a
galaxy with the amplitudes of the file. -/
theorem C172_model_refuted (p radii : List ℝ) (smoothing n rh x : ℝ) (hp : p ≠ []) (hlen : p.length = radii.length)
    (hr : ∀ r ∈ radii, 0 < r ^ 2 + smoothing ^ 2) (hsum : (p.map Real.exp).sum ≠ 1) :
    (row p radii smoothing n rh).model x ≠ profile ((row p radii smoothing n rh).amps.zip radii) smoothing 1 x := by
  rw [C172_model_partial p radii smoothing n rh x hp hr]
  have hpos : 0 < profile ((row p radii smoothing n rh).amps.zip radii) smoothing 1 x := by
    simp only [row]
    rw [zip_normalised, profile_scale]
    apply div_pos _ (expSum_pos hp)
    unfold profile
    rw [one_mul]
    apply List.sum_pos
    · intro v hv
      obtain ⟨c, hc, rfl⟩ := List.mem_map.1 hv
      have := (List.of_mem_zip hc).1
      obtain ⟨q, _, hq⟩ := List.mem_map.1 this
      rw [← hq]
      exact mul_pos (Real.exp_pos _) (Real.exp_pos _)
    · intro h
      have h' := congrArg List.length h
      simp [← hlen] at h'
      exact hp h'
  intro h
  exact hsum (mul_right_cancel₀ hpos.ne' (h.trans (one_mul _).symm))

/-- The hypotheses are met: two gaussians with amplitudes one. -/
example : ([0, 0] : List ℝ) ≠ [] ∧ (([0, 0] : List ℝ).map Real.exp).sum ≠ 1 := by
  refine ⟨by simp, by norm_num⟩

/-- C172, figure. The dotted curves add up to the curve of the mixture, and each is the profile of one gaussian of its amplitude, radius and
smoothing (whose integral over the plane is the amplitude, C100). -/
theorem C172_dotted (p radii : List ℝ) (smoothing n rh x : ℝ) (hr : ∀ r ∈ radii, 0 < r ^ 2 + smoothing ^ 2) :
    (dotted p radii smoothing x).sum = (row p radii smoothing n rh).model x ∧
    dotted p radii smoothing x = ((p.map Real.exp).zip radii).map fun c => profile [c] smoothing 1 x := by
  refine ⟨rfl, ?_⟩
  unfold dotted
  apply List.map_congr_left
  intro c hc
  rw [← C100_fitted (by simpa using hr c.2 (List.of_mem_zip hc).2)]
  simp [chisqMixture]

/-- C172, residual. The lower panel is zero just if the mixture agrees with the profile it was fitted to, and gives it back. -/
theorem C172_residual (sersic gauss : ℝ) (sm : Option ℝ) (ht : 0 < sm.getD sersic) :
    (residual sersic gauss sm = 0 ↔ gauss = sm.getD sersic) ∧ gauss = sm.getD sersic * (1 + residual sersic gauss sm) := by
  have key : ∀ t : ℝ, 0 < t → ((gauss / t - 1 = 0 ↔ gauss = t) ∧ gauss = t * (1 + (gauss / t - 1))) := by
    intro t h
    constructor
    · rw [sub_eq_zero, div_eq_one_iff_eq h.ne']
    · field_simp
      ring
  cases sm with
  | none => exact key sersic ht
  | some s => exact key s ht

theorem gaussCfd_scale (comps : List (ℝ × ℝ)) (x k : ℝ) (hk : k ≠ 0) :
    gaussCfd (comps.map fun c => (c.1 / k, c.2)) x = gaussCfd comps x := by
  unfold gaussCfd
  rw [List.map_map, List.map_map]
  have h1 : (comps.map ((fun c : ℝ × ℝ => if c.2 ≤ 0 then c.1 else c.1 * Real.Gamma 1 * gammainc 1 (0.5 * (x / c.2) ^ 2)) ∘
      fun c => (c.1 / k, c.2))).sum =
      (comps.map fun c : ℝ × ℝ => if c.2 ≤ 0 then c.1 else c.1 * Real.Gamma 1 * gammainc 1 (0.5 * (x / c.2) ^ 2)).sum / k := by
    rw [← sum_map_div]
    congr 1
    apply List.map_congr_left
    intro c _
    simp only [Function.comp]
    split
    · rfl
    · ring
  have h2 : (comps.map (Prod.fst ∘ fun c : ℝ × ℝ => (c.1 / k, c.2))).sum = (comps.map Prod.fst).sum / k := by
    rw [← sum_map_div]
    rfl
  rw [h1, h2, div_div_div_cancel_right₀ hk]

/-- C172, cumulative curves. The curve of the gaussians is that of the amplitudes in the file; with smoothing it is that of the amplitudes in
the file with the smoothed radii. The Sersic curve is the share of the flux within the radius: times the total flux it is the flux
within it, it is a half at the half-light radius. -/
theorem C172_cumulative (n rh : ℝ) (hn : 0 < n) (hrh : 0 < rh) (p radii : List ℝ) (hp : p ≠ []) (smoothing x : ℝ) (hx : 0 ≤ x)
    (ie total : ℝ) (ht : Tendsto (fluxWithin ie rh n (bn n)) atTop (𝓝 total)) :
    (cfdCurves n rh p radii smoothing x).2.2 = gaussCfd ((row p radii smoothing n rh).amps.zip radii) x ∧
    (cfdCurves n rh p radii smoothing x).2.1 =
      gaussCfd ((row p radii smoothing n rh).amps.zip (radii.map fun r => Real.sqrt (r ^ 2 + smoothing ^ 2))) x ∧
    (cfdCurves n rh p radii smoothing x).1 * total = fluxWithin ie rh n (bn n) x ∧ (cfdCurves n rh p radii smoothing rh).1 = 1 / 2 := by
  have h1 : ∀ y, (cfdCurves n rh p radii smoothing y).1 = fracSersic y rh n := by
    intro y
    simp only [cfdCurves, fracSersic]
    rw [mul_comm (gammaincinv _ _)]
  have hs := (expSum_pos hp).ne'
  refine ⟨?_, ?_, ?_, ?_⟩
  · simp only [cfdCurves, row]
    rw [zip_normalised, gaussCfd_scale _ _ _ hs]
  · simp only [cfdCurves, row]
    rw [zip_normalised, gaussCfd_scale _ _ _ hs]
  · rw [h1]
    exact (C98_fraction hn hrh hx ht).1
  · rw [h1]
    exact (C98_fraction hn hrh hx ht).2

/-- C172, truth. The profile of the file is the Sersic profile with intensity one at the half-light radius, so that it does not have unit flux
although the amplitudes do. -/
theorem C172_truth (p radii : List ℝ) (smoothing n rh x : ℝ) (hn : 0 < n) (hrh : 0 < rh) (hx : 0 ≤ x) :
    (row p radii smoothing n rh).truth x = Real.exp (-(bn n) * ((x / rh) ^ (1 / n) - 1)) ∧ (row p radii smoothing n rh).truth rh = 1 := by
  obtain ⟨h1, h2⟩ := C100_sersic hn hrh hx
  refine ⟨?_, h2⟩
  simp only [row]
  rw [h1, sersic, one_mul]

/-- C172, table. The weights of the text table are the amplitudes of the file, which add up to one. -/
theorem C172_table (p radii : List ℝ) (smoothing n rh : ℝ) (hp : p ≠ []) :
    tableWeights (row p radii smoothing n rh).amps = (row p radii smoothing n rh).amps ∧ (row p radii smoothing n rh).amps.sum = 1 ∧
    (row p radii smoothing n rh).amps.length = p.length := by
  have hs := (expSum_pos hp).ne'
  have h1 : (normalised p).sum = 1 := by
    unfold normalised
    rw [sum_map_div _ (fun a => a), List.map_id', div_self hs]
  simp only [row, tableWeights, h1, div_one, List.map_id', true_and]
  simp [normalised]

end

end Forcepho.Profile.Files
