import Verif.Demo.Model
import Mathlib.Analysis.Real.Pi.Bounds
import Mathlib.Tactic.FieldSimp
import Mathlib.Tactic.Ring
import Mathlib.Tactic.Linarith
import Mathlib.Tactic.NormNum
import Mathlib.Tactic.Positivity

/-! # C155: the demonstration scripts -/

set_option autoImplicit false

namespace Forcepho.Demo

open Forcepho.Kernel (M22)
open Forcepho.Slow (rotationMatrix scaleMatrix dotDot)

/-! ## Scenes -/

lemma fill_getD (n : Nat) (l r : List ℝ) (h : fill n l = some r) :
    r.length = n ∧ (l.length = n ∨ l.length = 1) ∧
    ∀ i, i < n → r.getD i 0 = if l.length = 1 then l.getD 0 0 else l.getD i 0 := by
  match l, h with
  | [x], h =>
    obtain rfl : List.replicate n x = r := by simpa [fill] using h
    refine ⟨by simp, .inr rfl, fun i hi => ?_⟩
    simp [List.getD_eq_getElem?_getD, List.getElem?_replicate, hi]
  | [], h =>
    rw [fill] at h
    · split at h
      · rename_i hn
        obtain rfl : [] = r := by simpa using h
        exact ⟨hn, .inl hn, fun i hi => by simp⟩
      · cases h
    · simp
  | a :: b :: l, h =>
    rw [fill] at h
    · split at h
      · rename_i hn
        obtain rfl : a :: b :: l = r := by simpa using h
        exact ⟨hn, .inl hn, fun i hi => by simp⟩
      · cases h
    · simp

/-- C155 (scene): a scene has one source per given radius, with the values given for it or for all; all sources have the right
ascension of the centre and source number `i` is `i` times its own radius times `dist_frac` arcsec north of it. -/
theorem C155_scene (centre : ℝ × ℝ) (d : ℝ) (rhalf sersic flux q pa : List ℝ) (hn : rhalf ≠ []) (l : List Row)
    (h : makeScene centre 1 d rhalf sersic flux q pa = some l) :
    l.length = rhalf.length ∧
    (∀ c ∈ [sersic, flux, q, pa], c.length = rhalf.length ∨ c.length = 1) ∧
    ∀ i (hi : i < l.length),
      l[i].id = i ∧ l[i].rhalf = rhalf.getD i 0 ∧
      l[i].sersic = (if sersic.length = 1 then sersic.getD 0 0 else sersic.getD i 0) ∧
      l[i].flux = (if flux.length = 1 then flux.getD 0 0 else flux.getD i 0) ∧
      l[i].q = (if q.length = 1 then q.getD 0 0 else q.getD i 0) ∧
      l[i].pa = (if pa.length = 1 then pa.getD 0 0 else pa.getD i 0) ∧
      l[i].ra = centre.1 ∧ (l[i].dec - centre.2) * 3600 = i * rhalf.getD i 0 * d := by
  have hp : 1 ≤ rhalf.length := List.length_pos_iff.2 hn
  have hmax : max rhalf.length 1 = rhalf.length := by omega
  rw [makeScene] at h
  simp only [hmax] at h
  cases hr : fill rhalf.length rhalf with
  | none => rw [hr] at h; cases h
  | some r =>
  cases hs : fill rhalf.length sersic with
  | none => rw [hr, hs] at h; cases h
  | some s =>
  cases hf : fill rhalf.length flux with
  | none => rw [hr, hs, hf] at h; cases h
  | some f =>
  cases hq : fill rhalf.length q with
  | none => rw [hr, hs, hf, hq] at h; cases h
  | some q' =>
  cases hpa : fill rhalf.length pa with
  | none => rw [hr, hs, hf, hq, hpa] at h; cases h
  | some p =>
  rw [hr, hs, hf, hq, hpa] at h
  simp only [Option.some.injEq] at h
  subst h
  obtain ⟨-, -, r3⟩ := fill_getD _ _ _ hr
  obtain ⟨-, s2, s3⟩ := fill_getD _ _ _ hs
  obtain ⟨-, f2, f3⟩ := fill_getD _ _ _ hf
  obtain ⟨-, q2, q3⟩ := fill_getD _ _ _ hq
  obtain ⟨-, p2, p3⟩ := fill_getD _ _ _ hpa
  refine ⟨by simp, ?_, ?_⟩
  · intro c hc
    simp only [List.mem_cons, List.not_mem_nil, or_false] at hc
    rcases hc with rfl | rfl | rfl | rfl <;> assumption
  · intro i hi
    rw [List.length_map, List.length_range] at hi
    have r4 : r.getD i 0 = rhalf.getD i 0 := by
      rw [r3 i hi]
      split
      · rename_i h1
        obtain rfl : i = 0 := by omega
        rfl
      · rfl
    simp only [List.getElem_map, List.getElem_range]
    refine ⟨trivial, r4, s3 i hi, f3 i hi, q3 i hi, p3 i hi, trivial, ?_⟩
    rw [r4]
    ring

/-- C155 (pairs): the distance of the two sources of a pair is `dist_frac` times the half-light radius of the second source. -/
theorem C155_pair (centre : ℝ × ℝ) (o : Options) (r1 r2 n : ℝ) (hr : o.rhalf = [r1, r2]) (hs : o.sersic = [n]) :
    ∃ a b, pairScene centre o = some [a, b] ∧ a.ra = b.ra ∧ (b.dec - a.dec) * 3600 = o.distFrac * r2 ∧
      a.rhalf = r1 ∧ b.rhalf = r2 ∧ a.sersic = n ∧ b.sersic = n ∧ (a.ra, a.dec) = centre := by
  refine ⟨⟨0, r1, n, 9 / 10, Real.pi / 2, 1, centre.1, centre.2⟩,
    ⟨1, r2, n, 9 / 10, Real.pi / 2, 1, centre.1, centre.2 + r2 * o.distFrac / 3600⟩, ?_, rfl, ?_, rfl, rfl, rfl, rfl, rfl⟩
  · simp [pairScene, makeScene, hr, hs, fill, List.range_succ]
  · dsimp only
    ring

/-- C155 (pairs, refuted): the descriptions say that the distance is in units of the half-light radius of the first source. -/
theorem C155_separation_refuted : ∃ (centre : ℝ × ℝ) (o : Options) (a b : Row), pairScene centre o = some [a, b] ∧
    (b.dec - a.dec) * 3600 ≠ o.distFrac * a.rhalf := by
  obtain ⟨a, b, h1, -, h2, h3, -⟩ := C155_pair (0, 0) ⟨[1, 2], [2], [1], [1], [1], 1⟩ 1 2 2 rfl rfl
  refine ⟨(0, 0), ⟨[1, 2], [2], [1], [1], [1], 1⟩, a, b, h1, ?_⟩
  rw [h2, h3]
  norm_num

/-- C155 (options, refuted): whatever fluxes, axis ratios and angles are asked for, the sources have flux 1, the column `q` 0.9
and the angle of the script. -/
theorem C155_options_refuted (centre : ℝ × ℝ) (o : Options) (l : List Row) :
    (pairScene centre o = some l → ∀ s ∈ l, s.flux = 1 ∧ s.q = 9 / 10 ∧ s.pa = Real.pi / 2) ∧
    (singleScene centre o = some l → ∀ s ∈ l, s.flux = 1 ∧ s.q = 9 / 10 ∧ s.pa = 0) := by
  have key : ∀ p : ℝ, makeScene centre 1 o.distFrac o.rhalf o.sersic [1] [9 / 10] [p] = some l →
      ∀ s ∈ l, s.flux = 1 ∧ s.q = 9 / 10 ∧ s.pa = p := by
    intro p h s hs
    rw [makeScene] at h
    simp only [fill] at h
    split at h
    · rename_i r s' f q' p' h1 h2 h3 h4 h5
      simp only [Option.some.injEq] at h h3 h4 h5
      subst h h3 h4 h5
      obtain ⟨i, hi, rfl⟩ := List.mem_map.1 hs
      have hi := List.mem_range.1 hi
      simp only [List.getD_eq_getElem?_getD, List.getElem?_replicate, if_pos hi, Option.getD_some]
      exact ⟨trivial, trivial, trivial⟩
    · cases h
  exact ⟨key _, key _⟩

/-! ## Geometry -/

lemma shear_norm (q : ℝ) (hq : 0 < q) : 1 / Real.sqrt (1 - ((1 - q ^ 2) / (1 + q ^ 2)) ^ 2) = (1 + q ^ 2) / (2 * q) := by
  have h1 : 1 - ((1 - q ^ 2) / (1 + q ^ 2)) ^ 2 = (2 * q / (1 + q ^ 2)) ^ 2 := by
    field_simp
    ring
  rw [h1, Real.sqrt_sq (by positivity), one_div_div]

lemma shear_eq (q pa : ℝ) (hq : 0 < q) : shear (q ^ 2) pa =
    ⟨(1 + q ^ 2 + (1 - q ^ 2) * Real.cos (2 * pa)) / (2 * q), (1 - q ^ 2) * Real.sin (2 * pa) / (2 * q),
     (1 - q ^ 2) * Real.sin (2 * pa) / (2 * q), (1 + q ^ 2 - (1 - q ^ 2) * Real.cos (2 * pa)) / (2 * q)⟩ := by
  rw [shear]
  simp only [shear_norm q hq]
  have : 1 + q ^ 2 ≠ 0 := by positivity
  congr 1 <;> field_simp

/-- C155 (shape): every round gaussian of a profile is drawn with the covariance that the fit gives it, for every stamp scale,
width of the PSF, axis ratio, angle and radius, with the PSF that is stored for the fit. -/
theorem C155_shape (band : String) (scale : ℝ) (hs : 0 < scale) (nx ny : Nat) (dither : ℝ × ℝ) (sigma q pa r : ℝ) (hq : 0 < q)
    (nradii : Nat) (p : PsfRow) (hp : p ∈ (makePsfstore [sigma] nradii).1) :
    drawnCov (makeStamp band scale nx ny dither).scale scale sigma q pa r =
      fittedCov (makeStamp band scale nx ny dither).scale p.cxx p.cyy 0 q pa r := by
  have hpix : 1 / Real.sqrt (abs (1 / scale * (1 / scale) - 0 * 0)) = scale := by
    rw [show 1 / scale * (1 / scale) - 0 * 0 = (1 / scale) ^ 2 by ring, abs_of_nonneg (by positivity),
      Real.sqrt_sq (by positivity), one_div_one_div]
  have hpp : p.cxx = sigma ^ 2 ∧ p.cyy = sigma ^ 2 := by
    simp only [makePsfstore, List.mem_flatMap, List.map_cons, List.map_nil, List.mem_cons, List.not_mem_nil, or_false] at hp
    obtain ⟨a, -, rfl⟩ := hp
    exact ⟨rfl, rfl⟩
  rw [hpp.1, hpp.2]
  simp only [drawnCov, fittedCov, makeStamp, hpix]
  have h1 := Real.sin_sq_add_cos_sq pa
  have hc : Real.cos (2 * pa) = 2 * Real.cos pa ^ 2 - 1 := Real.cos_two_mul pa
  have hsn : Real.sin (2 * pa) = 2 * Real.sin pa * Real.cos pa := Real.sin_two_mul pa
  have hm : (if q ≠ 1 then shear (q ^ 2) pa else ⟨1, 0, 0, 1⟩) = shear (q ^ 2) pa := by
    split
    · rfl
    · rename_i h
      push Not at h
      rw [shear_eq q pa hq, h]
      norm_num
  rw [hm, shear_eq q pa hq, hc, hsn]
  simp only [dotDot, rotationMatrix, scaleMatrix]
  have hs2 : Real.sin pa ^ 2 = 1 - Real.cos pa ^ 2 := by linarith
  congr 1
  · field_simp
    ring_nf
    rw [show Real.sin pa ^ 2 = 1 - Real.cos pa ^ 2 from hs2]
    ring
  · field_simp
    ring_nf
  · field_simp
    ring_nf
  · field_simp
    ring_nf
    rw [show Real.sin pa ^ 2 = 1 - Real.cos pa ^ 2 from hs2]
    ring

/-- C155 (place): a source is drawn where the astrometry puts it, to within a hundredth of a pixel, and exactly there if it is
farther than that from the middle of the stamp. -/
theorem C155_place (nx ny : Nat) (x y : ℝ) :
    let ox := ((nx : ℝ) - 1) / 2 + (offset nx ny x y).1
    let oy := ((ny : ℝ) - 1) / 2 + (offset nx ny x y).2
    Real.sqrt ((ox - x) ^ 2 + (oy - y) ^ 2) ≤ 1 / 100 ∧
    (1 / 100 < Real.sqrt ((x - ((nx : ℝ) - 1) / 2) ^ 2 + (y - ((ny : ℝ) - 1) / 2) ^ 2) → ox = x ∧ oy = y) := by
  intro ox oy
  by_cases h : 1 / 100 < Real.sqrt ((x - ((nx : ℝ) - 1) / 2) ^ 2 + (y - ((ny : ℝ) - 1) / 2) ^ 2)
  · have e : offset nx ny x y = (x - ((nx : ℝ) - 1) / 2, y - ((ny : ℝ) - 1) / 2) := if_pos h
    have e1 : ox = x := by simp only [ox, e]; ring
    have e2 : oy = y := by simp only [oy, e]; ring
    rw [e1, e2]
    refine ⟨by norm_num, fun _ => ⟨rfl, rfl⟩⟩
  · have e : offset nx ny x y = (0, 0) := if_neg h
    refine ⟨?_, fun h' => absurd h' h⟩
    have e1 : ox = ((nx : ℝ) - 1) / 2 := by simp only [ox, e]; ring
    have e2 : oy = ((ny : ℝ) - 1) / 2 := by simp only [oy, e]; ring
    rw [e1, e2]
    refine le_trans (le_of_eq ?_) (not_lt.1 h)
    congr 1
    ring

/-- C155 (dithers): in every stamp of a dither pattern the reference position of the sky is drawn at the reference pixel, which
is the middle of the stamp moved by the dither. -/
theorem C155_dither (band : String) (scale : ℝ) (nx ny : Nat) (d : ℝ × ℝ) (hd : 1 / 100 < Real.sqrt (d.1 ^ 2 + d.2 ^ 2))
    (toPix : ℝ × ℝ → ℝ × ℝ)
    (hw : toPix (makeStamp band scale nx ny d).crval = (makeStamp band scale nx ny d).crpix) :
    let p := toPix (53, -27)
    (((nx : ℝ) - 1) / 2 + (offset nx ny p.1 p.2).1, ((ny : ℝ) - 1) / 2 + (offset nx ny p.1 p.2).2) =
      (((nx : ℝ) - 1) / 2 + d.1, ((ny : ℝ) - 1) / 2 + d.2) := by
  intro p
  have hp : p = (((nx : ℝ) - 1) / 2 + d.1, ((ny : ℝ) - 1) / 2 + d.2) := hw
  rw [hp]
  have h := (C155_place nx ny (((nx : ℝ) - 1) / 2 + d.1) (((ny : ℝ) - 1) / 2 + d.2)).2
    (by rw [add_sub_cancel_left, add_sub_cancel_left]; exact hd)
  exact Prod.ext h.1 h.2

/-- C155 (frame). The reference of the stamp is the middle of its pixels, moved by the dither, one step of a pixel is the
scale, there is one weight for each pixel, and the stamp is of the band asked for. -/
theorem C155_frame (band : String) (scale : ℝ) (nx ny : Nat) (d : ℝ × ℝ) (hs : scale ≠ 0) :
    let st := makeStamp band scale nx ny d
    st.crpix.1 - d.1 = ((st.nx : ℝ) - 1) / 2 ∧ st.crpix.2 - d.2 = ((st.ny : ℝ) - 1) / 2 ∧ st.ierr.length = st.nx * st.ny ∧
    st.nx = nx ∧ st.scale.v11 * scale = 1 ∧ st.scale.v22 * scale = 1 ∧ st.scale.v12 = 0 ∧ st.scale.v21 = 0 ∧ st.filter = band := by
  refine ⟨by simp [makeStamp], by simp [makeStamp], by simp [makeStamp], rfl, ?_, ?_, rfl, rfl, rfl⟩ <;>
    simp [makeStamp, hs]

example : 1 / 100 < Real.sqrt (((352 / 300 : ℝ)) ^ 2 + (1387 / 300) ^ 2) := by
  rw [Real.lt_sqrt (by norm_num)]
  norm_num

/-! ## Noise -/

/-- C155 (noise): half of the flux of the first source, over the noise in the pixels within its half-light radius, is the S/N
asked for. -/
theorem C155_noise (flux rhalf scale snr : ℝ) (hf : 0 < flux) (hr : 0 < rhalf) (hs : 0 < scale) (h : 0 < snr) :
    0 < noiseLevel flux rhalf scale snr ∧
    flux / 2 / (noiseLevel flux rhalf scale snr * Real.sqrt (Real.pi * rhalf ^ 2 / scale ^ 2)) = snr := by
  have h0 : 0 < Real.sqrt (Real.pi * (rhalf / scale) ^ 2) := Real.sqrt_pos.2 (by positivity)
  rw [noiseLevel, show Real.pi * rhalf ^ 2 / scale ^ 2 = Real.pi * (rhalf / scale) ^ 2 by rw [div_pow]; ring]
  refine ⟨by positivity, ?_⟩
  field_simp

/-- C155 (deep images): the mean of `n` exposures with S/N `s` is as deep as one with S/N `s` times the square root of `n`;
nine of 15 are one of 45. -/
theorem C155_deep (n : Nat) (hn : 0 < n) (flux rhalf scale s : ℝ) :
    noiseLevel flux rhalf scale s / Real.sqrt n = noiseLevel flux rhalf scale (s * Real.sqrt n) ∧
    noiseLevel flux rhalf scale 15 / Real.sqrt (9 : Nat) = noiseLevel flux rhalf scale 45 := by
  have key : ∀ (n : Nat) (s : ℝ),
      noiseLevel flux rhalf scale s / Real.sqrt n = noiseLevel flux rhalf scale (s * Real.sqrt n) := by
    intro n s
    simp only [noiseLevel, div_eq_mul_inv, mul_inv]
    ring
  refine ⟨key n s, ?_⟩
  rw [key 9 15, show ((9 : Nat) : ℝ) = 3 ^ 2 by norm_num, Real.sqrt_sq (by norm_num)]
  norm_num

/-! ## PSF tables -/

lemma psf_bin (sigma : List ℝ) (n r : Nat) (hr : r < n) :
    (makePsfstore sigma n).1.filter (fun p => p.bin = r) = sigma.map fun s => ⟨1, s ^ 2, s ^ 2, r⟩ := by
  rw [makePsfstore]
  dsimp only
  induction n with
  | zero => omega
  | succ n ih =>
    rw [List.range_succ, List.flatMap_append, List.filter_append]
    rcases Nat.lt_succ_iff_lt_or_eq.1 hr with h | rfl
    · rw [ih h]
      have : (([n].flatMap fun r => sigma.map fun s => (⟨1, s ^ 2, s ^ 2, r⟩ : PsfRow)).filter fun p => p.bin = r) = [] := by
        rw [List.filter_eq_nil_iff]
        intro p hp
        simp only [List.flatMap_cons, List.flatMap_nil, List.append_nil, List.mem_map] at hp
        obtain ⟨s, -, rfl⟩ := hp
        simp only [decide_eq_true_eq]
        omega
      rw [this, List.append_nil]
    · have h1 : (((List.range r).flatMap fun r => sigma.map fun s => (⟨1, s ^ 2, s ^ 2, r⟩ : PsfRow)).filter
          fun p => p.bin = r) = [] := by
        rw [List.filter_eq_nil_iff]
        intro p hp
        simp only [List.mem_flatMap, List.mem_range, List.mem_map] at hp
        obtain ⟨a, ha, s, -, rfl⟩ := hp
        simp only [decide_eq_true_eq]
        omega
      rw [h1, List.nil_append]
      rw [List.filter_eq_self.2]
      · simp
      · intro p hp
        simp only [List.flatMap_cons, List.flatMap_nil, List.append_nil, List.mem_map] at hp
        obtain ⟨s, -, rfl⟩ := hp
        simp

/-- C155 (PSF): with one width the PSF of every radius is one gaussian of that width and unit flux, and there are as many rows
as the file says. -/
theorem C155_psf (sigma : ℝ) (n r : Nat) (hr : r < n) :
    (makePsfstore [sigma] n).1.filter (fun p => p.bin = r) = [⟨1, sigma ^ 2, sigma ^ 2, r⟩] ∧
    (makePsfstore [sigma] n).1.length = n ∧ (makePsfstore [sigma] n).2 = n := by
  refine ⟨psf_bin [sigma] n r hr, ?_, by simp [makePsfstore]⟩
  simp [makePsfstore, List.length_flatMap]

/-- C155 (PSF, refuted): with several widths the flux of the PSF of every radius is their number instead of one. -/
theorem C155_psf_refuted (sigma : List ℝ) (n r : Nat) (hr : r < n) :
    (((makePsfstore sigma n).1.filter fun p => p.bin = r).map (·.amp)).sum = sigma.length ∧
    (2 ≤ sigma.length → (((makePsfstore sigma n).1.filter fun p => p.bin = r).map (·.amp)).sum ≠ 1) ∧
    (makePsfstore sigma n).1.length = (makePsfstore sigma n).2 := by
  suffices h : (((makePsfstore sigma n).1.filter fun p => p.bin = r).map (·.amp)).sum = sigma.length ∧
      (makePsfstore sigma n).1.length = (makePsfstore sigma n).2 by
    refine ⟨h.1, fun h2 => ?_, h.2⟩
    rw [h.1]
    have : (2 : ℝ) ≤ sigma.length := by exact_mod_cast h2
    intro h3
    linarith
  constructor
  · rw [psf_bin sigma n r hr, List.map_map]
    have : ((fun p : PsfRow => p.amp) ∘ fun s : ℝ => (⟨1, s ^ 2, s ^ 2, r⟩ : PsfRow)) = fun _ => (1 : ℝ) := rfl
    rw [this]
    simp
  · simp [makePsfstore, List.length_flatMap]

/-! ## Files -/

/-- C155 (files): the fit finds in the image of a script the filter of the image and the bands of the catalog. -/
theorem C155_files (band : String) (rest : List (String × String)) (bands : List (List Char)) (hb : bands ≠ [])
    (hc : ∀ b ∈ bands, ',' ∉ b) :
    readFilter (makeImage band rest bands) = some band ∧ readBands (makeImage band rest bands) = some bands := by
  constructor
  · simp [readFilter, File.named, makeImage, writeFits, Hdu.key]
  · simp [readBands, File.last, makeImage, writeFits, Hdu.key, Postprocess.Postop.splitAux_join bands hb hc]

/-- C155 (colours, refuted): the script that fits images in several bands looks for the filter in the empty primary header: it
fails for every image that the script before it made. -/
theorem C155_color_refuted (files : List (String × List (String × String) × List (List Char))) (hf : files ≠ []) :
    colorBands (files.map fun f => makeImage f.1 f.2.1 f.2.2) = none := by
  obtain ⟨f, l, rfl⟩ := List.exists_cons_of_ne_nil hf
  simp [colorBands, File.primary, makeImage, writeFits, Hdu.key]

/-- C155 (colours): what the script would need is the filter in the primary header of every file: it reads the bands exactly of
such files, in their order. -/
theorem C155_color (files : List File) (bands : List String) :
    colorBands files = some bands ↔
      List.Forall₂ (fun f b => ∃ h r, f = h :: r ∧ h.keys.lookup "FILTER" = some b) files bands := by
  unfold colorBands
  induction files generalizing bands with
  | nil => simp [eq_comm]
  | cons f l ih =>
    rw [List.mapM_cons]
    cases f with
    | nil =>
      simp only [File.primary, List.head?_nil, Option.bind_none]
      constructor
      · intro h; cases h
      · intro h
        cases h with
        | cons h _ => obtain ⟨_, _, h, _⟩ := h; cases h
    | cons h r =>
      simp only [File.primary, List.head?_cons, Option.bind_some, Hdu.key]
      constructor
      · intro e
        obtain ⟨b, hb, e⟩ := Option.bind_eq_some_iff.1 e
        obtain ⟨bs, hbs, e⟩ := Option.bind_eq_some_iff.1 e
        obtain rfl : b :: bs = bands := Option.some.inj e
        exact .cons ⟨h, r, rfl, hb⟩ ((ih bs).1 hbs)
      · intro e
        cases e with
        | cons h1 h2 =>
          obtain ⟨h', r', he, hb⟩ := h1
          obtain ⟨rfl, rfl⟩ := List.cons.inj he
          have := (ih _).2 h2
          simp only [File.primary, Hdu.key] at this
          rw [hb, this]
          rfl

/-- C155 (dithers, refuted): no dither pattern can be written: the stamps have no weights, so there is no second extension whose
header could be changed. -/
theorem C155_dithers_refuted (band : String) (scale : ℝ) (nx ny : Nat) (dithers : List (ℝ × ℝ)) (hd : dithers ≠ [])
    (bands : List (List Char)) (hdr : Stamp → List (String × String)) :
    makeDithers (dithers.map fun d => makeStamp band scale nx ny d) bands hdr = none := by
  obtain ⟨d, l, rfl⟩ := List.exists_cons_of_ne_nil hd
  have h : toFitsLength (makeStamp band scale nx ny d) = 1 := by
    rw [toFitsLength, if_neg]
    rintro ⟨e, he, hne⟩
    exact hne (List.mem_replicate.1 he).2
  simp [makeDithers, h]

/-- The error extension exists as soon as one weight is not zero; then the files are written. -/
theorem C155_dithers_partial (sts : List Stamp) (h : ∀ st ∈ sts, ∃ e ∈ st.ierr, e ≠ 0) (bands : List (List Char))
    (hdr : Stamp → List (String × String)) :
    makeDithers sts bands hdr = some (sts.map fun st => writeFits (hdr st) bands true true) := by
  rw [makeDithers]
  induction sts with
  | nil => rfl
  | cons st l ih =>
    have h1 : toFitsLength st = 2 := if_pos (h st (by simp))
    rw [List.mapM_cons, ih fun s hs => h s (by simp [hs]), h1]
    rfl

/-- C155 (mosaics, refuted): the mosaic has no filter, so that it cannot be fitted. -/
theorem C155_mosaic_refuted (band : String) (rest : List (String × String)) (bands : List (List Char)) (l : List File) (m : File)
    (h : makeMosaic (makeImage band rest bands :: l) bands = some m) : readFilter m = none := by
  simp only [makeMosaic, List.head?_cons, Option.bind_some, File.primary, makeImage, writeFits, List.cons_append,
    Option.map_some, Option.some.injEq] at h
  subst h
  simp [readFilter, File.named, Hdu.key]

/-- C155 (mosaics): the mosaic ends with the catalog, from which the bands are read back; its image and uncertainty have the keys
of the primary header of the first dither. -/
theorem C155_mosaic (first : Hdu) (f : File) (l : List File) (bands : List (List Char)) (hb : bands ≠ [])
    (hc : ∀ b ∈ bands, ',' ∉ b) :
    ∃ m, makeMosaic ((first :: f) :: l) bands = some m ∧ readBands m = some bands ∧
      (m.map (·.name) = ["PRIMARY", "SCI", "ERR", ""]) ∧ ((File.named m "SCI").map (·.keys) = some first.keys) ∧
      ((File.named m "ERR").map (·.keys) = some first.keys) := by
  refine ⟨writeFits first.keys bands false true, rfl, by
    simp [readBands, File.last, writeFits, Hdu.key, Postprocess.Postop.splitAux_join bands hb hc], rfl, rfl, rfl⟩

example (band : String) (rest : List (String × String)) (bands : List (List Char)) (l : List File) :
    (makeMosaic (makeImage band rest bands :: l) bands).isSome := rfl

/-- C155 (names, refuted): without the option for the S/N the script for one PSF stops when it makes the name of its output. -/
theorem C155_tag_refuted (show_ : ℝ → String) (given : Option ℝ) :
    snrTag show_ given = none ↔ given = none := by
  cases given <;> simp [snrTag, format]

/-! ## Mosaics -/

lemma combine_some (l : List (ℝ × ℝ)) (h : ∀ d ∈ l, 0 < d.2) (a w : ℝ) (hw : 0 ≤ w) (hl : l ≠ [] ∨ 0 < w) :
    (l.map fun d => (some d.1, d.2)).foldl (fun (s : Option ℝ × ℝ) (d : Option ℝ × ℝ) => combineStep s d.1 d.2) (some a, w) =
      (some ((a * w + (l.map fun d => d.1 * d.2).sum) / (w + (l.map fun d => d.2).sum)), w + (l.map fun d => d.2).sum) := by
  induction l generalizing a w with
  | nil =>
    have : 0 < w := by simpa using hl
    simp only [List.map_nil, List.foldl_nil, List.sum_nil, add_zero]
    rw [mul_div_assoc, div_self this.ne', mul_one]
  | cons d l ih =>
    have hd := h d (by simp)
    have hw' : 0 < w + d.2 := by linarith
    simp only [List.map_cons, List.foldl_cons, List.sum_cons]
    rw [combineStep]
    simp only [if_neg hw'.ne']
    rw [ih (fun e he => h e (by simp [he])) _ _ hw'.le (.inr hw'), div_mul_cancel₀ _ hw'.ne']
    have e1 : a * w + d.1 * d.2 + (l.map fun d => d.1 * d.2).sum =
        a * w + (d.1 * d.2 + (l.map fun d => d.1 * d.2).sum) := by ring
    have e2 : w + d.2 + (l.map fun d => d.2).sum = w + (d.2 + (l.map fun d => d.2).sum) := by ring
    rw [e1, e2]
    all_goals rfl

/-- C155 (mean): a pixel covered by all dithers is in the mosaic the mean weighted by inverse variances, and its weight is their
sum. -/
theorem C155_mean (l : List (ℝ × ℝ)) (hl : l ≠ []) (h : ∀ d ∈ l, 0 < d.2) :
    combine (l.map fun d => (some d.1, d.2)) =
      (some ((l.map fun d => d.1 * d.2).sum / (l.map fun d => d.2).sum), (l.map fun d => d.2).sum) := by
  rw [combine, combine_some l h 0 0 le_rfl (.inl hl)]
  simp

lemma combine_none (l : List (Option ℝ × ℝ)) (s : Option ℝ × ℝ) (h : s.1 = none ∨ ∃ d ∈ l, d.1 = none) :
    (l.foldl (fun (s : Option ℝ × ℝ) (d : Option ℝ × ℝ) => combineStep s d.1 d.2) s).1 = none := by
  induction l generalizing s with
  | nil => simpa using h
  | cons d l ih =>
    rw [List.foldl_cons]
    apply ih
    rcases h with h | ⟨e, he, h⟩
    · left
      simp [combineStep, h]
    · rcases List.mem_cons.1 he with rfl | he
      · left
        simp only [combineStep, h]
        cases s.1 <;> rfl
      · exact .inr ⟨e, he, h⟩

/-- C155 (edges, refuted): a pixel that one dither does not cover is not a number in the mosaic, however many others cover it. -/
theorem C155_edges_refuted (l : List (Option ℝ × ℝ)) (h : ∃ d ∈ l, d.1 = none) : (combine l).1 = none :=
  combine_none l _ (.inr h)

/-! ## The region of a fit -/

/-- The astrometry is flat to nine percent around the middle of the image: the middle comes back, and a step `a` to the east and
`b` to the north, in units of `r` degrees, is a step of `a` and `b` times `3600 r / scale` pixels. -/
def NearlyFlat (w : Region.Wcs ℝ) (nx ny : Nat) (scale r : ℝ) : Prop :=
  let c := w.toSky ((nx : ℝ) / 2, (ny : ℝ) / 2)
  w.toPix c = ((nx : ℝ) / 2, (ny : ℝ) / 2) ∧
  ∀ a b : ℝ, |a| ≤ 1 → |b| ≤ 1 →
    let q := w.toPix (c.1 + a * (r / Real.cos (c.2 * (Real.pi / 180))), c.2 + b * r)
    |q.1 - ((nx : ℝ) / 2 + a * (3600 * r / scale))| ≤ 9 / 100 * (3600 * r / scale) ∧
    |q.2 - ((ny : ℝ) / 2 + b * (3600 * r / scale))| ≤ 9 / 100 * (3600 * r / scale)

lemma radius_pixels (nx : Nat) (scale : ℝ) (hs : 0 < scale) :
    3600 * fitRadius nx scale / scale = nx * (11 / 10 / Real.sqrt 2) := by
  rw [fitRadius]
  have h2 : Real.sqrt 2 ≠ 0 := by positivity
  field_simp

lemma sqrt_bounds : 7777 / 10000 < 11 / 10 / Real.sqrt 2 ∧ 11 / 10 / Real.sqrt 2 < 7779 / 10000 := by
  have h0 : 0 < Real.sqrt 2 := by positivity
  have h1 : (141421 / 100000 : ℝ) < Real.sqrt 2 := by
    rw [Real.lt_sqrt (by norm_num)]
    norm_num
  have h2 : Real.sqrt 2 < 141422 / 100000 := by
    rw [Real.sqrt_lt' (by norm_num)]
    norm_num
  constructor
  · rw [lt_div_iff₀ h0]
    linarith
  · rw [div_lt_iff₀ h0]
    linarith

lemma box_corners (w : Region.Wcs ℝ) (nx ny : Nat) (scale : ℝ) (hs : 0 < scale) (hn : 0 < nx)
    (hw : NearlyFlat w nx ny scale (fitRadius nx scale)) (a b : ℝ) (ha : a = 1 ∨ a = -1) (hb : b = 1 ∨ b = -1) :
    let c := w.toSky ((nx : ℝ) / 2, (ny : ℝ) / 2)
    let q := w.toPix (c.1 + a * (fitRadius nx scale / Real.cos (c.2 * (Real.pi / 180))), c.2 + b * fitRadius nx scale)
    (70 / 100 * (nx : ℝ) < a * (q.1 - (nx : ℝ) / 2) ∧ 70 / 100 * (nx : ℝ) < b * (q.2 - (ny : ℝ) / 2)) ∧
    b * (q.2 - (ny : ℝ) / 2) < 85 / 100 * (nx : ℝ) := by
  intro c q
  have ha' : |a| ≤ 1 := by rcases ha with rfl | rfl <;> norm_num
  have hb' : |b| ≤ 1 := by rcases hb with rfl | rfl <;> norm_num
  obtain ⟨h1, h2⟩ := hw.2 a b ha' hb'
  rw [radius_pixels nx scale hs] at h1 h2
  obtain ⟨k1, k2⟩ := sqrt_bounds
  have hN : (0 : ℝ) < nx := by exact_mod_cast hn
  have l1 := mul_lt_mul_of_pos_left k1 hN
  have l2 := mul_lt_mul_of_pos_left k2 hN
  rw [abs_le] at h1 h2
  change _ ≤ q.1 - _ ∧ q.1 - _ ≤ _ at h1
  change _ ≤ q.2 - _ ∧ q.2 - _ ≤ _ at h2
  rcases ha with rfl | rfl <;> rcases hb with rfl | rfl <;>
    exact ⟨⟨by linarith [h1.1, h1.2], by linarith [h2.1, h2.2]⟩, by linarith [h2.1, h2.2]⟩

lemma box_eq (w : Region.Wcs ℝ) (nx ny : Nat) (scale : ℝ) :
    (fitRegion w nx ny scale).box =
      [(-1, -1), (1, -1), (1, 1), (-1, 1)].map fun s : ℝ × ℝ =>
        ((w.toSky ((nx : ℝ) / 2, (ny : ℝ) / 2)).1 +
            s.1 * (fitRadius nx scale / Real.cos ((w.toSky ((nx : ℝ) / 2, (ny : ℝ) / 2)).2 * (Real.pi / 180))),
          (w.toSky ((nx : ℝ) / 2, (ny : ℝ) / 2)).2 + s.2 * fitRadius nx scale) := by
  simp [fitRegion, Region.circle, Region.circleBox, Region.deg2rad, sub_eq_add_neg]

/-- C155 (region): the region around an image that is at least as wide as high keeps the file and all of its pixels. -/
theorem C155_region (f : Region.FitsFile ℝ) (scale : ℝ) (hs : 0 < scale) (hn : 0 < f.naxis1) (hy : f.naxis2 ≤ f.naxis1)
    (hw : NearlyFlat f.wcs f.naxis1 f.naxis2 scale (fitRadius f.naxis1 scale)) :
    let reg := fitRegion f.wcs f.naxis1 f.naxis2 scale
    Region.fitsFindExposures [f] (some reg) [f.band] true = [f] ∧
    Region.fitsSelected (some reg) f.wcs f.naxis1 f.naxis2 =
      (List.range f.naxis1).flatMap fun i => (List.range f.naxis2).map fun j => (i, j) := by
  intro reg
  have hN : (0 : ℝ) < f.naxis1 := by exact_mod_cast hn
  have hY : (f.naxis2 : ℝ) ≤ f.naxis1 := by exact_mod_cast hy
  constructor
  · have c1 := box_corners f.wcs f.naxis1 f.naxis2 scale hs hn hw 1 1 (.inl rfl) (.inl rfl)
    have c2 := box_corners f.wcs f.naxis1 f.naxis2 scale hs hn hw (-1) (-1) (.inr rfl) (.inr rfl)
    have hbox : reg.box = _ := box_eq f.wcs f.naxis1 f.naxis2 scale
    have hm : f ∈ Region.fitsFindExposures [f] (some reg) [f.band] true := by
      rw [Region.C106_listed _ _ _ _ _ (by rintro r ⟨⟩; rw [hbox]; simp)]
      refine ⟨by simp, by simp, ?_⟩
      rintro r ⟨⟩ -
      right
      rw [hbox]
      have m1 := List.mem_map_of_mem (f := fun s : ℝ × ℝ =>
        ((f.wcs.toSky ((f.naxis1 : ℝ) / 2, (f.naxis2 : ℝ) / 2)).1 +
            s.1 * (fitRadius f.naxis1 scale /
              Real.cos ((f.wcs.toSky ((f.naxis1 : ℝ) / 2, (f.naxis2 : ℝ) / 2)).2 * (Real.pi / 180))),
          (f.wcs.toSky ((f.naxis1 : ℝ) / 2, (f.naxis2 : ℝ) / 2)).2 + s.2 * fitRadius f.naxis1 scale))
        (show ((1 : ℝ), (1 : ℝ)) ∈ [((-1 : ℝ), (-1 : ℝ)), (1, -1), (1, 1), (-1, 1)] by simp)
      have m2 := List.mem_map_of_mem (f := fun s : ℝ × ℝ =>
        ((f.wcs.toSky ((f.naxis1 : ℝ) / 2, (f.naxis2 : ℝ) / 2)).1 +
            s.1 * (fitRadius f.naxis1 scale /
              Real.cos ((f.wcs.toSky ((f.naxis1 : ℝ) / 2, (f.naxis2 : ℝ) / 2)).2 * (Real.pi / 180))),
          (f.wcs.toSky ((f.naxis1 : ℝ) / 2, (f.naxis2 : ℝ) / 2)).2 + s.2 * fitRadius f.naxis1 scale))
        (show ((-1 : ℝ), (-1 : ℝ)) ∈ [((-1 : ℝ), (-1 : ℝ)), (1, -1), (1, 1), (-1, 1)] by simp)
      have k1 := c1.1
      have k2 := c2.1
      refine ⟨⟨_, m1, ?_⟩, ⟨_, m2, ?_⟩, ⟨_, m1, ?_⟩, ⟨_, m2, ?_⟩⟩ <;> dsimp only <;> linarith
    simp only [Region.fitsFindExposures, List.flatMap_cons, List.flatMap_nil, List.append_nil, List.mem_filter] at hm ⊢
    have h2 := hm.2
    simp only [decide_true, Bool.true_and] at h2
    simp [h2]
  · rw [Region.fitsSelected, List.filter_eq_self]
    rintro ⟨i, j⟩ hij
    simp only [List.mem_flatMap, List.mem_range, List.mem_map, Prod.mk.injEq] at hij
    obtain ⟨i', hi, j', hj, rfl, rfl⟩ := hij
    refine List.any_eq_true.2 ⟨((i' : ℝ), (j' : ℝ)), by simp [Region.fitsCorners], ?_⟩
    have n1 := (hw.2 0 1 (by norm_num) (by norm_num)).2
    rw [radius_pixels _ scale hs, zero_mul, add_zero, one_mul, one_mul] at n1
    have hI : (i' : ℝ) ≤ f.naxis1 := by exact_mod_cast hi.le
    have hJ : (j' : ℝ) ≤ f.naxis2 := by exact_mod_cast hj.le
    have hI0 : (0 : ℝ) ≤ i' := Nat.cast_nonneg i'
    have hJ0 : (0 : ℝ) ≤ j' := Nat.cast_nonneg j'
    simp only [reg, fitRegion, Region.circle, decide_eq_true_eq]
    have hc : f.wcs.toPix ((f.wcs.toSky ((f.naxis1 : ℝ) / 2, (f.naxis2 : ℝ) / 2)).1,
        (f.wcs.toSky ((f.naxis1 : ℝ) / 2, (f.naxis2 : ℝ) / 2)).2) = ((f.naxis1 : ℝ) / 2, (f.naxis2 : ℝ) / 2) := hw.1
    rw [hc]
    generalize f.wcs.toPix ((f.wcs.toSky ((f.naxis1 : ℝ) / 2, (f.naxis2 : ℝ) / 2)).1,
      (f.wcs.toSky ((f.naxis1 : ℝ) / 2, (f.naxis2 : ℝ) / 2)).2 + fitRadius f.naxis1 scale) = q at n1 ⊢
    dsimp only
    have l1 := mul_lt_mul_of_pos_left sqrt_bounds.1 hN
    rw [abs_le] at n1
    have d1 : 7077 / 10000 * (f.naxis1 : ℝ) ≤ q.2 - f.naxis2 / 2 := by linarith [n1.1]
    have d2 : (7077 / 10000 * (f.naxis1 : ℝ)) ^ 2 ≤ (q.2 - f.naxis2 / 2) ^ 2 :=
      pow_le_pow_left₀ (by positivity) d1 2
    have x2 : ((f.naxis1 : ℝ) / 2 - i') ^ 2 ≤ ((f.naxis1 : ℝ) / 2) ^ 2 := by
      apply sq_le_sq'
      · linarith
      · linarith
    have y2 : ((f.naxis2 : ℝ) / 2 - j') ^ 2 ≤ ((f.naxis1 : ℝ) / 2) ^ 2 := by
      apply sq_le_sq'
      · linarith
      · linarith
    have p2 : 0 < (f.naxis1 : ℝ) ^ 2 := by positivity
    nlinarith [sq_nonneg ((f.naxis1 : ℝ) / 2 - q.1)]

/-- C155 (region, refuted): the radius comes from the width alone.  The file of an image that is at least twice as high as wide
does not pass the check of coverage, so that the fit has no data. -/
theorem C155_region_refuted (f : Region.FitsFile ℝ) (scale : ℝ) (hs : 0 < scale) (hn : 0 < f.naxis1)
    (hy : 2 * f.naxis1 ≤ f.naxis2) (hw : NearlyFlat f.wcs f.naxis1 f.naxis2 scale (fitRadius f.naxis1 scale))
    (bands : List String) :
    Region.fitsFindExposures [f] (some (fitRegion f.wcs f.naxis1 f.naxis2 scale)) bands true = [] := by
  have hN : (0 : ℝ) < f.naxis1 := by exact_mod_cast hn
  have hY : 2 * (f.naxis1 : ℝ) ≤ f.naxis2 := by exact_mod_cast hy
  have sgn : ∀ s ∈ [((-1 : ℝ), (-1 : ℝ)), (1, -1), (1, 1), (-1, 1)], (s.1 = 1 ∨ s.1 = -1) ∧ (s.2 = 1 ∨ s.2 = -1) := by
    intro s hs
    simp only [List.mem_cons, List.not_mem_nil, or_false] at hs
    rcases hs with rfl | rfl | rfl | rfl <;> simp
  have key : Region.roughCoverage (fitRegion f.wcs f.naxis1 f.naxis2 scale) f = false := by
    simp only [Region.roughCoverage, Bool.or_eq_false_iff]
    rw [box_eq, List.map_map]
    constructor
    · rw [List.any_eq_false]
      intro p hp
      obtain ⟨s, hs', rfl⟩ := List.mem_map.1 hp
      obtain ⟨h1, h2⟩ := sgn s hs'
      have c := (box_corners f.wcs f.naxis1 f.naxis2 scale hs hn hw s.1 s.2 h1 h2).1.1
      simp only [Function.comp, Bool.and_eq_true, decide_eq_true_eq, not_and]
      intro ⟨⟨k1, k2⟩, _⟩
      rcases h1 with h1 | h1 <;> rw [h1] at c k1 k2 <;> exfalso <;> linarith
    · rw [Bool.and_eq_false_iff, Bool.and_eq_false_iff]
      left
      right
      rw [decide_eq_false_iff_not, not_lt]
      have hm := Region.hi_mem (l := (List.map (f.wcs.toPix ∘ fun s : ℝ × ℝ =>
        ((f.wcs.toSky ((f.naxis1 : ℝ) / 2, (f.naxis2 : ℝ) / 2)).1 +
            s.1 * (fitRadius f.naxis1 scale /
              Real.cos ((f.wcs.toSky ((f.naxis1 : ℝ) / 2, (f.naxis2 : ℝ) / 2)).2 * (Real.pi / 180))),
          (f.wcs.toSky ((f.naxis1 : ℝ) / 2, (f.naxis2 : ℝ) / 2)).2 + s.2 * fitRadius f.naxis1 scale))
        [(-1, -1), (1, -1), (1, 1), (-1, 1)]).map Prod.snd) (by simp)
      rw [List.mem_map] at hm
      obtain ⟨p, hp, he⟩ := hm
      rw [← he]
      obtain ⟨s, hs', rfl⟩ := List.mem_map.1 hp
      obtain ⟨h1, h2⟩ := sgn s hs'
      have c := box_corners f.wcs f.naxis1 f.naxis2 scale hs hn hw s.1 s.2 h1 h2
      simp only [Function.comp]
      obtain ⟨⟨-, c1⟩, c2⟩ := c
      rcases h2 with h2 | h2 <;> rw [h2] at c1 c2 ⊢ <;> linarith
  simp [Region.fitsFindExposures, Region.fitsKeeps, key]

/-- An astrometric solution that is flat, with the celestial equator in the middle of the image. -/
noncomputable def flatWcs (nx ny : Nat) (scale : ℝ) : Region.Wcs ℝ where
  toPix := fun p => ((nx : ℝ) / 2 + 3600 / scale * p.1, (ny : ℝ) / 2 + 3600 / scale * p.2)
  toSky := fun p => (scale / 3600 * (p.1 - (nx : ℝ) / 2), scale / 3600 * (p.2 - (ny : ℝ) / 2))

/-- The hypotheses of `C155_region` (with 64 times 64 pixels) and `C155_region_refuted` (with 64 times 128 pixels) are met. -/
theorem C155_region_witness (nx ny : Nat) (scale r : ℝ) (hs : 0 < scale) (hr : 0 ≤ r) :
    NearlyFlat (flatWcs nx ny scale) nx ny scale r := by
  refine ⟨by simp [flatWcs], ?_⟩
  intro a b _ _
  have hp : 0 ≤ 9 / 100 * (3600 * r / scale) := by positivity
  constructor
  · refine le_trans (le_of_eq ?_) hp
    rw [abs_eq_zero]
    simp only [flatWcs, sub_self, mul_zero, zero_mul, Real.cos_zero, div_one, zero_add]
    ring
  · refine le_trans (le_of_eq ?_) hp
    rw [abs_eq_zero]
    simp only [flatWcs, sub_self, mul_zero, zero_add]
    ring

end Forcepho.Demo
