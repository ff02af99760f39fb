import Verif.Galsim.Model
import Verif.Profile.Props
import Mathlib.Tactic.Linarith
import Mathlib.Tactic.NormNum
import Mathlib.Tactic.FieldSimp
import Mathlib.Tactic.LinearCombination
import Mathlib.Tactic.FinCases

/-! # C160: the simulated images of the validation -/

set_option autoImplicit false

namespace Forcepho.Galsim

/-- C160 (noise). With one scale and one flux for each band, the noise of a pixel is such that half of the flux over the noise
of the pixels within the half-light radius, π(rhalf/scale)² of them, is the S/N asked for; one scale serves all bands, one flux all
scales; other numbers of scales and bands raise. -/
theorem C160_noise (rhalf snr : ℝ) (hr : 0 < rhalf) (hs : 0 < snr) (scales fluxes : List ℝ) :
    (scales.length = fluxes.length → ∃ ns, noiseLevel rhalf snr scales fluxes = some ns ∧ ns.length = fluxes.length ∧
      ∀ (i : Nat) (s f n : ℝ), scales[i]? = some s → fluxes[i]? = some f → ns[i]? = some n → 0 < s →
        f / 2 = snr * Real.sqrt (Real.pi * (rhalf / s) ^ 2 * n ^ 2) ∨ f < 0) ∧
    (∀ s, scales = [s] → ∃ ns, noiseLevel rhalf snr scales fluxes = some ns ∧ ns.length = fluxes.length ∧
      ∀ (i : Nat) (f n : ℝ), fluxes[i]? = some f → ns[i]? = some n → 0 < s →
        f / 2 = snr * Real.sqrt (Real.pi * (rhalf / s) ^ 2 * n ^ 2) ∨ f < 0) ∧
    (∀ f, fluxes = [f] → scales.length ≠ 1 → ∃ ns, noiseLevel rhalf snr scales fluxes = some ns ∧ ns.length = scales.length ∧
      ∀ (i : Nat) (s n : ℝ), scales[i]? = some s → ns[i]? = some n → 0 < s →
        f / 2 = snr * Real.sqrt (Real.pi * (rhalf / s) ^ 2 * n ^ 2) ∨ f < 0) ∧
    (scales.length ≠ fluxes.length → scales.length ≠ 1 → fluxes.length ≠ 1 → noiseLevel rhalf snr scales fluxes = none) := by
  have key : ∀ s f : ℝ, 0 < s →
      f / 2 = snr * Real.sqrt (Real.pi * (rhalf / s) ^ 2 * (f / 2 / snr / Real.sqrt (Real.pi * (rhalf / s) ^ 2)) ^ 2) ∨ f < 0 := by
    intro s f hs'
    by_cases hf : f < 0
    · exact Or.inr hf
    · left
      have hf := not_lt.1 hf
      have hA : 0 < Real.pi * (rhalf / s) ^ 2 := by have := Real.pi_pos; positivity
      have hq := Real.sqrt_pos.2 hA
      rw [Real.sqrt_mul hA.le, Real.sqrt_sq (by positivity)]
      field_simp
  refine ⟨?_, ?_, ?_, ?_⟩
  · intro h
    refine ⟨_, by unfold noiseLevel; rw [if_pos h], by rw [List.length_zipWith, h, Nat.min_self], ?_⟩
    intro i s f n h1 h2 h3 hs'
    rw [List.getElem?_zipWith, h1, h2] at h3
    injection h3 with h3
    rw [← h3]
    exact key s f hs'
  · intro s h
    subst h
    by_cases hl : [s].length = fluxes.length
    · refine ⟨_, by unfold noiseLevel; rw [if_pos hl], by rw [List.length_zipWith, hl, Nat.min_self], ?_⟩
      intro i f n h2 h3 hs'
      have hi : i = 0 := by
        have := (List.getElem?_eq_some_iff.1 h2).1
        simp at hl
        omega
      subst hi
      rw [List.getElem?_zipWith, h2] at h3
      injection h3 with h3
      rw [← h3]
      exact key s f hs'
    · refine ⟨_, by unfold noiseLevel; rw [if_neg hl], by rw [List.length_map], ?_⟩
      intro i f n h2 h3 hs'
      rw [List.getElem?_map, h2] at h3
      injection h3 with h3
      rw [← h3]
      exact key s f hs'
  · intro f h h1
    subst h
    refine ⟨scales.map fun s => f / 2 / snr / Real.sqrt (Real.pi * (rhalf / s) ^ 2), ?_, by rw [List.length_map], ?_⟩
    · unfold noiseLevel
      rw [if_neg (by simpa using h1)]
      match scales, h1 with
      | [], _ => rfl
      | [_], h => exact absurd rfl h
      | _ :: _ :: _, _ => rfl
    · intro i s n h2 h3 hs'
      rw [List.getElem?_map, h2] at h3
      injection h3 with h3
      rw [← h3]
      exact key s f hs'
  · intro h h1 h2
    unfold noiseLevel
    rw [if_neg h]
    match scales, fluxes with
    | [], [] => exact absurd rfl h
    | [], [_] => simp at h2
    | [], _ :: _ :: _ => rfl
    | [_], _ => simp at h1
    | _ :: _ :: _, [_] => simp at h2
    | _ :: _ :: _, [] => rfl
    | _ :: _ :: _, _ :: _ :: _ => rfl

/-- C160 (size). The image has from 64 to 256 pixels on a side, and twenty half-light radii to within a pixel when that is
in this range. -/
theorem C160_size (rhalf scale : ℝ) :
    64 ≤ sizeImg rhalf scale ∧ sizeImg rhalf scale ≤ 256 ∧
    (64 ≤ 20 * rhalf / scale → 20 * rhalf / scale ≤ 256 →
      (sizeImg rhalf scale : ℝ) ≤ 20 * rhalf / scale ∧ 20 * rhalf / scale < sizeImg rhalf scale + 1) ∧
    (256 < 20 * rhalf / scale → sizeImg rhalf scale = 256) := by
  unfold sizeImg
  refine ⟨?_, ?_, ?_, ?_⟩
  · rw [Int.le_floor]
    push_cast
    exact le_min (by norm_num) (le_max_left _ _)
  · have : (⌊min 256 (max 64 (20 * rhalf / scale))⌋ : ℝ) ≤ 256 := (Int.floor_le _).trans (min_le_left _ _)
    exact_mod_cast this
  · intro h1 h2
    rw [max_eq_right h1, min_eq_right h2]
    exact ⟨Int.floor_le _, Int.lt_floor_add_one _⟩
  · intro h
    rw [max_eq_right (by linarith), min_eq_left h.le]
    norm_num

theorem fill_same (n : Nat) (xs : List ℝ) (h : xs.length = n) : fill n xs = some xs := by
  unfold fill; rw [if_pos h]

theorem fill_one (n : Nat) (x : ℝ) : fill n [x] = some (List.replicate n x) := by
  unfold fill
  by_cases h : [x].length = n
  · rw [if_pos h, ← h]; rfl
  · rw [if_neg h]

/-- C160 (scene). With as many radii as sources, or one radius for all, and the same for the fluxes, source `i` is
`i·rhalf_i·dist_frac` arcsec north of the centre; other numbers raise. -/
theorem C160_scene (nsource : Nat) (distFrac : ℝ) (rhalf flux : List ℝ) :
    (rhalf ≠ [] → nsource ≤ rhalf.length → flux.length = rhalf.length → ∃ ss, makeScene nsource distFrac rhalf flux = some ss ∧
      ss.length = rhalf.length ∧ ∀ (i : Nat) (s : Src), ss[i]? = some s →
        rhalf[i]? = some s.rhalf ∧ flux[i]? = some s.flux ∧ s.ddec * 3600 = i * s.rhalf * distFrac) ∧
    (∀ r f, rhalf = [r] → flux = [f] → ∃ ss, makeScene nsource distFrac rhalf flux = some ss ∧
      ss.length = max 1 nsource ∧ ∀ (i : Nat) (s : Src), ss[i]? = some s →
        s.rhalf = r ∧ s.flux = f ∧ s.ddec * 3600 = i * r * distFrac) ∧
    (rhalf.length ≠ 1 → rhalf.length < nsource → makeScene nsource distFrac rhalf flux = none) := by
  have hget : ∀ (rs fs : List ℝ), rs.length = fs.length → ∀ (i : Nat) (s : Src),
      ((List.zip rs fs).zipIdx.map fun e => (⟨(e.2 : ℝ) * (e.1.1 * distFrac) / 3600, e.1.1, e.1.2⟩ : Src))[i]? = some s →
      rs[i]? = some s.rhalf ∧ fs[i]? = some s.flux ∧ s.ddec * 3600 = i * s.rhalf * distFrac := by
    intro rs fs hl i s h
    rw [List.getElem?_map, List.getElem?_zipIdx] at h
    cases hz : (List.zip rs fs)[i]? with
    | none => rw [hz] at h; cases h
    | some e =>
      rw [hz] at h
      simp only [Option.map_some, Option.some.injEq] at h
      obtain ⟨h1, h2⟩ := List.getElem?_zip_eq_some.1 hz
      rw [← h]
      refine ⟨h1, h2, ?_⟩
      simp only [zero_add]
      ring
  refine ⟨?_, ?_, ?_⟩
  · intro hne hn hf
    have hm : max rhalf.length nsource = rhalf.length := Nat.max_eq_left hn
    refine ⟨_, by unfold makeScene; simp only [hm, fill_same _ rhalf rfl, fill_same _ flux hf]; rfl, by simp [hf], ?_⟩
    exact hget rhalf flux hf.symm
  · intro r f hr hf
    subst hr hf
    refine ⟨_, by unfold makeScene; simp only [fill_one]; rfl, by simp, ?_⟩
    intro i s h
    obtain ⟨h1, h2, h3⟩ := hget _ _ (by simp) i s h
    have e1 := List.eq_of_mem_replicate (List.mem_of_getElem? h1)
    have e2 := List.eq_of_mem_replicate (List.mem_of_getElem? h2)
    exact ⟨e1, e2, by rw [h3, e1]⟩
  · intro h1 h2
    unfold makeScene
    have hm : max rhalf.length nsource = nsource := Nat.max_eq_right h2.le
    have hf : fill nsource rhalf = none := by
      unfold fill
      rw [if_neg h2.ne]
      match rhalf, h1 with
      | [], _ => rfl
      | [_], h => exact absurd rfl h
      | _ :: _ :: _, _ => rfl
    simp only [hm, hf]

/-- C160, partial (separation). Sources with one radius are `dist_frac` radii apart.
Missing: different radii, refuted below. -/
theorem C160_separation_partial (nsource : Nat) (distFrac r f : ℝ) :
    ∃ ss, makeScene nsource distFrac [r] [f] = some ss ∧ ∀ (i : Nat) (s t : Src), ss[i]? = some s → ss[i + 1]? = some t →
      (t.ddec - s.ddec) * 3600 = r * distFrac := by
  obtain ⟨ss, h1, _, h3⟩ := (C160_scene nsource distFrac [r] [f]).2.1 r f rfl rfl
  refine ⟨ss, h1, ?_⟩
  intro i s t hs ht
  have e1 := (h3 i s hs).2.2
  have e2 := (h3 (i + 1) t ht).2.2
  rw [sub_mul, e1, e2]
  push_cast
  ring

/-- C160, refuted (separation). With the radii r, 2r and r, the second and the third source are at the same place, whatever
the distance asked for. -/
theorem C160_separation_refuted (distFrac r : ℝ) (flux : List ℝ) (hf : flux.length = 3) :
    ∃ ss s t, makeScene 1 distFrac [r, 2 * r, r] flux = some ss ∧ ss[1]? = some s ∧ ss[2]? = some t ∧ s.ddec = t.ddec := by
  obtain ⟨ss, h1, h2, h3⟩ := (C160_scene 1 distFrac [r, 2 * r, r] flux).1 (by simp) (by simp) (by simp [hf])
  simp only [List.length_cons, List.length_nil] at h2
  have e1 : ss[1]? = some (ss[1]'(by omega)) := List.getElem?_eq_getElem (by omega)
  have e2 : ss[2]? = some (ss[2]'(by omega)) := List.getElem?_eq_getElem (by omega)
  refine ⟨ss, _, _, h1, e1, e2, ?_⟩
  obtain ⟨a1, _, a3⟩ := h3 1 _ e1
  obtain ⟨b1, _, b3⟩ := h3 2 _ e2
  simp only [List.getElem?_cons_succ, List.getElem?_cons_zero, Option.some.injEq] at a1 b1
  rw [← a1] at a3
  rw [← b1] at b3
  push_cast at a3 b3
  linarith

/-- C160, refuted (flux). Whatever flux is configured, every source of the simulated image has the flux one. -/
theorem C160_flux_refuted (distFrac : ℝ) (rhalf configFlux : List ℝ) (ss : List Src)
    (h : imageScene distFrac rhalf configFlux = some ss) : ∀ s ∈ ss, s.flux = 1 := by
  unfold imageScene makeScene at h
  simp only [fill_one] at h
  cases hf : fill (max rhalf.length 1) rhalf with
  | none => rw [hf] at h; cases h
  | some rs =>
    rw [hf] at h
    simp only [Option.some.injEq] at h
    intro s hs
    rw [← h] at hs
    obtain ⟨e, he, rfl⟩ := List.mem_map.1 hs
    obtain ⟨_, _, h3⟩ := List.mem_zipIdx he
    have hm : e.1 ∈ List.zip rs (List.replicate (max rhalf.length 1) 1) := by rw [h3]; exact List.getElem_mem _
    exact List.eq_of_mem_replicate (List.of_mem_zip (a := e.1.1) (b := e.1.2) hm).2

/-- Two galaxies: the configuration can be simulated. -/
example : ∃ ss, imageScene 1.5 [0.2, 0.2] [10] = some ss := by
  unfold imageScene makeScene
  simp only [fill_one]
  rw [fill_same _ _ (by simp)]
  exact ⟨_, rfl⟩

/-- C160 (shape). The ellipse of the simulated galaxy is the one of the model: the circle distorted by the matrices of
scale, diag(1/q, q), and rotation by the position angle. -/
theorem C160_shape (q pa : ℝ) (hq : 0 < q) :
    simulated q pa * (simulated q pa).transpose =
      (!![Real.cos pa, -Real.sin pa; Real.sin pa, Real.cos pa] * !![1 / q, 0; 0, q]) *
      (!![Real.cos pa, -Real.sin pa; Real.sin pa, Real.cos pa] * !![1 / q, 0; 0, q]).transpose := by
  have hsc := Real.sin_sq_add_cos_sq pa
  unfold simulated
  by_cases h1 : q = 1
  · rw [if_pos h1, h1]
    ext i j
    fin_cases i <;> fin_cases j <;>
      simp [Matrix.mul_apply, Fin.sum_univ_two, Matrix.transpose_apply] <;> nlinarith
  · rw [if_neg h1]
    have hden : (1 + q ^ 2) ≠ 0 := by positivity
    have hg : 1 - ((1 - q ^ 2) / (1 + q ^ 2)) ^ 2 = (2 * q / (1 + q ^ 2)) ^ 2 := by field_simp; ring
    have hsq : Real.sqrt (1 - ((1 - q ^ 2) / (1 + q ^ 2)) ^ 2) = 2 * q / (1 + q ^ 2) := by
      rw [hg, Real.sqrt_sq (by positivity)]
    unfold galsimShear
    simp only [hsq]
    rw [Real.cos_two_mul, Real.sin_two_mul]
    have hs2 : Real.sin pa ^ 2 = 1 - Real.cos pa ^ 2 := by linarith
    ext i j
    fin_cases i <;> fin_cases j <;>
      simp [Matrix.mul_apply, Fin.sum_univ_two, Matrix.transpose_apply] <;> field_simp <;> ring_nf <;>
      simp only [hs2] <;> ring

/-- C160 (position). The galaxy is drawn within a hundredth of a pixel of its place. -/
theorem C160_position (nx ny x y : ℝ) :
    |(drawOffset nx ny x y).1 + (nx - 1) / 2 - x| ≤ 0.01 ∧ |(drawOffset nx ny x y).2 + (ny - 1) / 2 - y| ≤ 0.01 ∧
    (0.01 < Real.sqrt ((x - (nx - 1) / 2) ^ 2 + (y - (ny - 1) / 2) ^ 2) →
      drawOffset nx ny x y = (x - (nx - 1) / 2, y - (ny - 1) / 2)) := by
  unfold drawOffset
  simp only
  by_cases h : Real.sqrt ((x - (nx - 1) / 2) ^ 2 + (y - (ny - 1) / 2) ^ 2) > 1e-2
  · rw [if_pos h]
    refine ⟨?_, ?_, fun _ => rfl⟩
    · rw [show x - (nx - 1) / 2 + (nx - 1) / 2 - x = 0 by ring, abs_zero]; norm_num
    · rw [show y - (ny - 1) / 2 + (ny - 1) / 2 - y = 0 by ring, abs_zero]; norm_num
  · rw [if_neg h]
    have h' := not_lt.1 h
    have h2 : (x - (nx - 1) / 2) ^ 2 + (y - (ny - 1) / 2) ^ 2 ≤ (1e-2 : ℝ) ^ 2 := by
      have := Real.sqrt_le_left (by norm_num : (0 : ℝ) ≤ 1e-2) |>.1 h'
      exact this
    refine ⟨?_, ?_, ?_⟩
    · apply abs_le_of_sq_le_sq _ (by norm_num)
      simp only [zero_add]
      nlinarith [sq_nonneg (y - (ny - 1) / 2)]
    · apply abs_le_of_sq_le_sq _ (by norm_num)
      simp only [zero_add]
      nlinarith [sq_nonneg (x - (nx - 1) / 2)]
    · intro h3
      exact absurd (lt_of_lt_of_le h3 h') (by norm_num)

/-- C160 (PSF). The store has `n_psf_per_source` gaussians, each round and centred, of the widths given in pixels, for every
radius; with one width the amplitude of a radius is one, and the width is the one of the simulated PSF over the size of a
pixel. -/
theorem C160_psf_partial (sigma : List ℝ) (nradii : Nat) :
    (psfStore sigma nradii).1.length = (psfStore sigma nradii).2 ∧ (psfStore sigma nradii).2 = nradii * sigma.length ∧
    (∀ g ∈ (psfStore sigma nradii).1, g.bin < nradii ∧ ∃ s ∈ sigma, g.cxx = s ^ 2 ∧ g.cyy = s ^ 2 ∧ g.cxy = 0) ∧
    (∀ i < nradii, (((psfStore sigma nradii).1.filter fun g => decide (g.bin = i)).map PsfGauss.amp).sum = sigma.length) ∧
    (∀ s scale : ℝ, scale ≠ 0 → galsimSigma s scale / scale = s) := by
  refine ⟨?_, rfl, ?_, ?_, ?_⟩
  · simp [psfStore]
  · intro g hg
    obtain ⟨i, hi, h⟩ := List.mem_flatMap.1 hg
    obtain ⟨s, hs, rfl⟩ := List.mem_map.1 h
    exact ⟨List.mem_range.1 hi, s, hs, rfl, rfl, rfl⟩
  · intro i hi
    have key : ∀ l : List Nat, l.Nodup →
        (((l.flatMap fun i => sigma.map fun s => (⟨1, s ^ 2, s ^ 2, 0, i⟩ : PsfGauss)).filter
          fun g => decide (g.bin = i)).map PsfGauss.amp).sum = if i ∈ l then (sigma.length : ℝ) else 0 := by
      intro l hl
      induction l with
      | nil => simp
      | cons j l ih =>
        rw [List.nodup_cons] at hl
        rw [List.flatMap_cons, List.filter_append, List.map_append, List.sum_append, ih hl.2]
        by_cases hj : j = i
        · subst hj
          rw [if_neg hl.1, if_pos (by simp), List.filter_eq_self.2 (by
            intro g hg
            obtain ⟨s, _, rfl⟩ := List.mem_map.1 hg
            simp)]
          simp [Function.comp_def]
        · have h0 : (sigma.map fun s => (⟨1, s ^ 2, s ^ 2, 0, j⟩ : PsfGauss)).filter (fun g => decide (g.bin = i)) = [] := by
            rw [List.filter_eq_nil_iff]
            intro g hg
            obtain ⟨s, _, rfl⟩ := List.mem_map.1 hg
            simpa using hj
          rw [h0]
          by_cases hi' : i ∈ l
          · rw [if_pos hi', if_pos (by simp [hi'])]; simp
          · rw [if_neg hi', if_neg (by simp [hi', Ne.symm hj])]; simp
    have := key (List.range nradii) List.nodup_range
    rw [if_pos (List.mem_range.2 hi)] at this
    exact this
  · intro s scale h
    unfold galsimSigma
    field_simp

/-- C160, refuted (PSF). With several widths the PSF of every radius has more than the flux one. -/
theorem C160_psf_refuted (sigma : List ℝ) (nradii : Nat) (h : 2 ≤ sigma.length) (i : Nat) (hi : i < nradii) :
    1 < (((psfStore sigma nradii).1.filter fun g => decide (g.bin = i)).map PsfGauss.amp).sum := by
  rw [(C160_psf_partial sigma nradii).2.2.2.1 i hi]
  have : (2 : ℝ) ≤ sigma.length := by exact_mod_cast h
  linarith

/-- C160 (aperture). At the true index and radius, twice the flux within the true half-light radius is the flux. -/
theorem C160_aperture (truth flux sersic : ℝ) (ht : 0 < truth) (hn : 0 < sersic) :
    2 * apertureFlux truth flux sersic truth = flux ∧
    ∀ r, 0 < r → 0 ≤ flux → 0 ≤ apertureFlux truth flux sersic r ∧ apertureFlux truth flux sersic r ≤ flux := by
  constructor
  · unfold apertureFlux
    rw [(Profile.C98_fraction (ie := 1) hn ht ht.le (Profile.flux_total hn (Profile.bn_spec hn).1 ht)).2]
    ring
  · intro r hr hf
    obtain ⟨h0, h1, h2, _⟩ := Profile.C98_fraction_shape (rh := r) (n := sersic) hn hr
    have a := h1 0 truth le_rfl ht
    rw [h0] at a
    have b := h2 truth ht.le
    unfold apertureFlux
    exact ⟨mul_nonneg hf a.le, by nlinarith⟩

theorem splitBands_ne (l : List Char) : splitBands l ≠ [] := by
  induction l with
  | nil => simp [splitBands]
  | cons c t ih =>
    unfold splitBands
    cases h : splitBands t with
    | nil => simp
    | cons w ws =>
      by_cases hc : c = ','
      · simp [hc]
      · simp [hc]

theorem splitBands_plain (b : List Char) (hb : ',' ∉ b) : splitBands b = [b] := by
  induction b with
  | nil => rfl
  | cons c t ih =>
    unfold splitBands
    rw [ih (fun h => hb (by simp [h]))]
    have : c ≠ ',' := by intro h; exact hb (by simp [h])
    simp [this]

theorem splitBands_append (b r : List Char) (hb : ',' ∉ b) : splitBands (b ++ ',' :: r) = b :: splitBands r := by
  induction b with
  | nil =>
    rw [List.nil_append, splitBands]
    cases h : splitBands r with
    | nil => exact absurd h (splitBands_ne r)
    | cons w ws => simp
  | cons c t ih =>
    rw [List.cons_append, splitBands, ih (fun h => hb (by simp [h]))]
    have : c ≠ ',' := by intro h; exact hb (by simp [h])
    simp [this]

/-- C160 (bands in the file). The bands read back from the last extension are those written, when there is a scene and the
names have no commas; without a scene the last extension has none. -/
theorem C160_bands (bands : List (List Char)) (hne : bands ≠ []) (hc : ∀ b ∈ bands, ',' ∉ b) (noise : Bool) :
    readBands (fitsFile bands noise true) = some bands ∧ readBands (fitsFile bands noise false) = none ∧
    (fitsFile bands noise true)[0]? = some .image ∧ (fitsFile bands noise true)[1]? = some .uncertainty ∧
    ((fitsFile bands noise true)[2]? = some .noise ↔ noise = true) := by
  have hsplit : splitBands (joinBands bands) = bands := by
    induction bands with
    | nil => exact absurd rfl hne
    | cons b t ih =>
      cases t with
      | nil => exact splitBands_plain b (hc b (by simp))
      | cons c t =>
        rw [joinBands, splitBands_append _ _ (hc b (by simp)),
          ih (by simp) (fun x hx => hc x (List.mem_cons_of_mem _ hx))]
  refine ⟨?_, ?_, ?_, ?_, ?_⟩
  · cases noise <;> simp [fitsFile, readBands, hsplit]
  · cases noise <;> simp [fitsFile, readBands]
  · cases noise <;> simp [fitsFile]
  · cases noise <;> simp [fitsFile]
  · cases noise <;> simp [fitsFile]

example : readBands (fitsFile ["F090W".toList, "F115W".toList] true true) = some ["F090W".toList, "F115W".toList] :=
  (C160_bands _ (by simp) (by decide) true).1

end Forcepho.Galsim
