import Verif.Demo.Flow
import Mathlib.Data.List.TakeWhile

/-! # C163: the scripts of a demonstration find each other's files -/

set_option autoImplicit false

namespace Forcepho.Demo.Flow

open Forcepho.SuperScene.Disk
open Forcepho.Galsim (fixed Rounds rint padDigits digitChar fixed_inj rint_iff padDigits_lt)

/-! ## Replacing -/

/-- With enough steps the number of steps does not matter. -/
theorem replaceAux_enough (pat new : List Char) (hp : pat ≠ []) : ∀ (n m : Nat) (s : List Char), s.length ≤ n → s.length ≤ m →
    replaceAux pat new n s = replaceAux pat new m s := by
  intro n
  induction n with
  | zero =>
    intro m s h1 _
    have : s = [] := List.length_eq_zero_iff.1 (Nat.le_zero.1 h1)
    subst this
    cases m <;> rfl
  | succ n ih =>
    intro m s h1 h2
    cases s with
    | nil => cases m <;> rfl
    | cons c cs =>
      cases m with
      | zero => simp at h2
      | succ m =>
        rw [replaceAux, replaceAux]
        cases e : stripPrefix pat (c :: cs) with
        | none =>
          simp only
          rw [ih m cs (by simpa using h1) (by simpa using h2)]
        | some r =>
          simp only
          have k := congrArg List.length (stripPrefix_some e)
          rw [List.length_append] at k
          have : 0 < pat.length := List.length_pos_iff.2 hp
          rw [ih m r (by omega) (by omega)]

/-- An occurrence at the beginning is replaced. -/
theorem pyReplace_here (pat new t : List Char) (hp : pat ≠ []) :
    pyReplace pat new (pat ++ t) = new ++ pyReplace pat new t := by
  obtain ⟨a, p, rfl⟩ := List.exists_cons_of_ne_nil hp
  have e := stripPrefix_append (a :: p) t
  unfold pyReplace
  rw [List.cons_append] at e ⊢
  rw [List.length_cons, replaceAux]
  simp only [e]
  rw [replaceAux_enough (a :: p) new hp _ t.length t (by simp) le_rfl]

/-- What comes before a character that is not in the pattern, without an occurrence, stays as it is. -/
theorem pyReplace_past (pat new : List Char) (hp : pat ≠ []) (c : Char) (hc : c ∉ pat) (t : List Char) :
    ∀ s : List Char, ¬ pat <:+: s → pyReplace pat new (s ++ c :: t) = s ++ c :: pyReplace pat new t := by
  have step : ∀ (x : Char) (u : List Char), stripPrefix pat (x :: u) = none →
      pyReplace pat new (x :: u) = x :: pyReplace pat new u := by
    intro x u h
    unfold pyReplace
    rw [List.length_cons, replaceAux, h]
  intro s
  induction s with
  | nil =>
    intro _
    apply step
    cases e : stripPrefix pat (c :: t) with
    | none => rfl
    | some r =>
      obtain ⟨a, p, rfl⟩ := List.exists_cons_of_ne_nil hp
      have k := stripPrefix_some e
      rw [List.cons_append] at k
      injection k with k _
      exact absurd (by rw [k]; simp) hc
  | cons x s ih =>
    intro hs
    have h1 : ¬ pat <:+: s := fun ⟨a, b, k⟩ => hs ⟨x :: a, b, by rw [← k]; rfl⟩
    rw [List.cons_append, step, ih h1, List.cons_append]
    cases e : stripPrefix pat (x :: (s ++ c :: t)) with
    | none => rfl
    | some r =>
      exfalso
      have k : (x :: s) ++ c :: t = pat ++ r := stripPrefix_some e
      rcases List.append_eq_append_iff.1 k with ⟨w, h2, h3⟩ | ⟨w, h2, h3⟩
      · cases w with
        | nil =>
          rw [List.append_nil] at h2
          exact hs ⟨[], [], by rw [h2]; simp⟩
        | cons y w =>
          rw [List.cons_append] at h3
          injection h3 with h3 _
          exact hc (by rw [h2, h3]; simp)
      · exact hs ⟨[], w, by rw [h2]; simp⟩

/-! ## Chains and residuals -/

/-- C163 (residuals): the figures find the residuals of a chain if nothing else in the path says "samples". -/
theorem C163_residuals_partial (outroot : List Char) (h : ¬ "samples".toList <:+: outroot) :
    residualsOf (outroot ++ "_samples.h5".toList) = outroot ++ "_residuals.h5".toList ∧
    residualsOf (samplesName outroot) = residualsName outroot := by
  have k : residualsOf (outroot ++ "_samples.h5".toList) = outroot ++ "_residuals.h5".toList := by
    rw [residualsOf, show outroot ++ "_samples.h5".toList = outroot ++ '_' :: ("samples".toList ++ ".h5".toList) from rfl,
      pyReplace_past _ _ (by decide) '_' (by decide) _ _ h, pyReplace_here _ _ _ (by decide)]
    rw [show pyReplace "samples".toList "residuals".toList ".h5".toList = ".h5".toList by decide]
    rfl
  exact ⟨k, k⟩

/-- C163 (residuals, refuted): in a directory called samples they are looked for in a directory called residuals. -/
theorem C163_residuals_refuted : samplesName "samples/patch1".toList = "samples/patch1_samples.h5".toList ∧
    residualsName "samples/patch1".toList = "samples/patch1_residuals.h5".toList ∧
    residualsOf "samples/patch1_samples.h5".toList = "residuals/patch1_residuals.h5".toList := by decide +kernel

/-- The output of the demonstrations meets the condition. -/
example : ¬ "samples".toList <:+: "./output/v1/patches/patch1".toList := by decide +kernel

/-! ## Paths -/

theorem join_eq (d : List Char) : ∃ pre : List Char, (pre = [] ∨ ∃ e, pre = e ++ ['/']) ∧
    (∀ x : List Char, x.head? ≠ some '/' → join d x = pre ++ x) ∧ (∀ x, x ∈ pre → x ∈ d ∨ x = '/') ∧
    (pre = d ∨ pre = d ++ ['/']) := by
  by_cases h : d = [] ∨ d.getLast? = some '/'
  · refine ⟨d, ?_, fun x hx => by rw [join, if_neg hx, if_pos h], fun x hx => .inl hx, .inl rfl⟩
    rcases h with h | h
    · exact .inl h
    · right
      obtain ⟨e, he⟩ := List.getLast?_eq_some_iff.1 h
      exact ⟨e, he⟩
  · refine ⟨d ++ ['/'], .inr ⟨d, rfl⟩, fun x hx => by rw [join, if_neg hx, if_neg h]; simp, ?_, .inr rfl⟩
    intro x hx
    simpa using hx

theorem basename_eq (a b : List Char) (hb : '/' ∉ b) : basename (a ++ '/' :: b) = b ∧ basename b = b := by
  have h : ∀ x ∈ b.reverse, (decide (x ≠ '/')) = true := by
    intro x hx
    simp only [ne_eq, decide_eq_true_eq]
    rintro rfl
    exact hb (List.mem_reverse.1 hx)
  constructor
  · rw [basename, List.reverse_append, List.reverse_cons, List.append_assoc, List.takeWhile_append_of_pos h]
    simp
  · rw [basename, List.takeWhile_eq_self_iff.2 h, List.reverse_reverse]

theorem dirname_eq (a b : List Char) (hb : '/' ∉ b) (ha : a ≠ []) (hl : a.getLast? ≠ some '/') :
    dirname (a ++ '/' :: b) = a ∧ dirname b = [] := by
  have h : ∀ x ∈ b.reverse, (decide (x ≠ '/')) = true := by
    intro x hx
    simp only [ne_eq, decide_eq_true_eq]
    rintro rfl
    exact hb (List.mem_reverse.1 hx)
  constructor
  · obtain ⟨e, c, rfl⟩ : ∃ e c, a = e ++ [c] := ⟨a.dropLast, a.getLast ha, (List.dropLast_append_getLast ha).symm⟩
    have hc : c ≠ '/' := by
      rintro rfl
      exact hl (by simp)
    have e1 : ((e ++ [c] ++ '/' :: b).reverse.dropWhile fun x => decide (x ≠ '/')) = '/' :: c :: e.reverse := by
      rw [List.reverse_append, List.reverse_cons, List.append_assoc, List.dropWhile_append_of_pos h]
      simp
    unfold dirname
    simp only [e1]
    rw [if_neg (by simp [hc])]
    simp [hc]
  · unfold dirname
    simp only [List.dropWhile_eq_nil_iff.2 h]
    rfl

theorem fixed_digits (w : Nat) (x : ℚ) : ∀ c ∈ fixed w 0 x, c.isDigit = true := by
  intro c hc
  rw [fixed, if_pos rfl, List.mem_reverse] at hc
  obtain ⟨n, hn, rfl⟩ := List.mem_map.1 hc
  have : ∀ n < 10, (digitChar n).isDigit = true := by decide
  exact this n (padDigits_lt w _ n hn)

/-- A text has no occurrence of a pattern with a character that it lacks. -/
theorem absent_of (pat s : List Char) (c : Char) (hp : c ∈ pat) (hs : c ∉ s) : ¬ pat <:+: s :=
  fun h => hs (h.subset hp)

/-- C163 (S/N): the figures read the chain of the fit of the image of that S/N, for every S/N, if data and output are where the
scripts put them unless told otherwise; and also with the images in another place. -/
theorem C163_snr (outdir : List Char) (snr : ℚ) :
    snrPatch snr = samplesName (snrRoot "./output/v1".toList (snrImage outdir snr)) := by
  obtain ⟨pre, h1, h2, -, -⟩ := join_eq outdir
  have hns : '/' ∉ "single_snr".toList ++ (fixed 3 0 snr ++ ".fits".toList) := by
    rw [List.mem_append, List.mem_append]
    rintro (h | h | h)
    · exact absurd h (by decide)
    · exact absurd (fixed_digits _ _ _ h) (by decide)
    · exact absurd h (by decide)
  have hb : basename (snrImage outdir snr) = "single_snr".toList ++ (fixed 3 0 snr ++ ".fits".toList) := by
    rw [snrImage, h2 _ (by
      intro h
      exact hns (List.mem_of_mem_head? (by rw [h]; rfl)))]
    rcases h1 with rfl | ⟨e, rfl⟩
    · exact (basename_eq [] _ hns).2
    · rw [List.append_assoc]
      exact (basename_eq e _ hns).1
  have hr : pyReplace ".fits".toList [] (basename (snrImage outdir snr)) = "single_snr".toList ++ fixed 3 0 snr := by
    rw [hb, ← List.append_assoc]
    have := pyReplace_ending (new := []) (s := "single_snr".toList ++ fixed 3 0 snr) (absent_of _ _ '.' (by decide) (by
      rw [List.mem_append]
      rintro (h | h)
      · exact absurd h (by decide)
      · exact absurd (fixed_digits _ _ _ h) (by decide)))
    rw [List.append_nil] at this
    exact this
  unfold snrPatch samplesName snrRoot
  have e0 : join "./output/v1".toList "patches".toList = "./output/v1/patches".toList := by decide +kernel
  have e1 : ∀ x : List Char, join "./output/v1/patches".toList ("patch_".toList ++ x) =
      "./output/v1/patches/patch_".toList ++ x := by
    have k1 : ("patch_".toList : List Char) = 'p' :: "atch_".toList := by decide +kernel
    have k2 : ¬ ("./output/v1/patches".toList = [] ∨ "./output/v1/patches".toList.getLast? = some '/') := by decide +kernel
    have k3 : "./output/v1/patches/patch_".toList = "./output/v1/patches".toList ++ '/' :: "patch_".toList := by decide +kernel
    intro x
    rw [join, if_neg (by rw [k1]; simp), if_neg k2, k3]
    simp only [List.append_assoc, List.cons_append]
  have e2 : "./output/v1/patches/patch_single_snr".toList = "./output/v1/patches/patch_".toList ++ "single_snr".toList := by
    decide +kernel
  rw [hr, e0, e1, e2, List.append_assoc, List.append_assoc, List.append_assoc]

/-- C163 (S/N): two images of one run have the same name exactly if their S/N round to the same whole number; the second then
replaces the first. -/
theorem C163_snr_names (outdir : List Char) (s t : ℚ) (hs : 0 ≤ s) (ht : 0 ≤ t) :
    (snrImage outdir s = snrImage outdir t ↔ ∃ k, Rounds 0 s k ∧ Rounds 0 t k) ∧
    (snrPatch s = snrPatch t ↔ ∃ k, Rounds 0 s k ∧ Rounds 0 t k) := by
  rw [← rint_iff 0 s t hs ht, ← fixed_inj 3 0 (by norm_num)]
  constructor
  · obtain ⟨pre, -, h2, -, -⟩ := join_eq outdir
    have hh : ∀ x : List Char, ("single_snr".toList ++ x).head? ≠ some '/' := by
      have k1 : "single_snr".toList = 's' :: "ingle_snr".toList := by decide +kernel
      intro x
      rw [k1]
      simp
    rw [snrImage, snrImage, h2 _ (hh _), h2 _ (hh _)]
    constructor
    · intro h
      exact List.append_cancel_right (List.append_cancel_left (List.append_cancel_left h))
    · intro h
      rw [h]
  · unfold snrPatch
    constructor
    · intro h
      exact List.append_cancel_right (List.append_cancel_left h)
    · intro h
      rw [h]

/-- C163 (S/N, refuted): S/N of 0.6 and 1.4 share one image and one chain. -/
theorem C163_snr_refuted (outdir : List Char) : (3 / 5 : ℚ) ≠ 7 / 5 ∧ snrImage outdir (3 / 5) = snrImage outdir (7 / 5) ∧
    snrPatch (3 / 5) = snrPatch (7 / 5) := by
  have h : ∃ k, Rounds 0 (3 / 5 : ℚ) k ∧ Rounds 0 (7 / 5 : ℚ) k := by
    have hr : rint ((3 / 5 : ℚ) * 10 ^ 0) = rint ((7 / 5 : ℚ) * 10 ^ 0) := by decide +kernel
    exact (rint_iff 0 _ _ (by norm_num) (by norm_num)).1 hr
  obtain ⟨h1, h2⟩ := C163_snr_names outdir (3 / 5) (7 / 5) (by norm_num) (by norm_num)
  exact ⟨by norm_num, h1.2 h, h2.2 h⟩

/-! ## Colours -/

/-- C163 (colours): the name of a fit does not depend on the order of the images, nor on how many there are in a band. -/
theorem C163_color_order (bands bands' : List String) (h : ∀ b, b ∈ bands ↔ b ∈ bands') :
    colorTask bands = colorTask bands' := by
  have hp : bands.dedup.Perm bands'.dedup :=
    (List.perm_ext_iff_of_nodup (List.nodup_dedup _) (List.nodup_dedup _)).2 (by simpa using h)
  have : bands.dedup.insertionSort (fun a b => a ≤ b) = bands'.dedup.insertionSort (fun a b => a ≤ b) :=
    ((List.perm_insertionSort _ _).trans (hp.trans (List.perm_insertionSort _ _).symm)).eq_of_pairwise
      (fun a b _ _ h1 h2 => le_antisymm h1 h2) (List.pairwise_insertionSort _ _) (List.pairwise_insertionSort _ _)
  rw [colorTask, colorTask, this]

/-- C163 (colours): any fit to blue and red images is where the figure of both looks for it. -/
theorem C163_color_partial (bands : List String) (h : ∀ b, b ∈ bands ↔ b = "BLUE" ∨ b = "RED") :
    normal (samplesName (colorRoot "./output/together_v1".toList bands)) =
      "output/together_v1/patches/patch_BLUE+RED_samples.h5".toList ∧
    normal (samplesName (colorRoot colorBase bands)) = togetherPatch := by
  have e := C163_color_order bands ["BLUE", "RED"] (by simpa using h)
  rw [colorRoot, colorRoot, e]
  have hs : (["BLUE", "RED"] : List String).dedup.insertionSort (fun a b => a ≤ b) = ["BLUE", "RED"] := by decide +kernel
  rw [colorTask, hs]
  decide +kernel

/-- C163 (colours, refuted): of the three fits that the readme asks for none is where the figure of separate fits looks. -/
theorem C163_color_refuted : readmeFits.map normal =
      ["output/together_v1/patches/patch_BLUE_samples.h5".toList, "output/together_v1/patches/patch_RED_samples.h5".toList,
        "output/together_v1/patches/patch_BLUE+RED_samples.h5".toList] ∧
    ∀ p ∈ separatePatches, normal p ∉ readmeFits.map normal := by
  have h1 : colorTask ["BLUE"] = "BLUE".toList := by decide +kernel
  have h2 : colorTask ["RED"] = "RED".toList := by decide +kernel
  have h3 : colorTask ["BLUE", "RED"] = "BLUE+RED".toList := by decide +kernel
  have h : readmeFits.map normal =
      ["output/together_v1/patches/patch_BLUE_samples.h5".toList, "output/together_v1/patches/patch_RED_samples.h5".toList,
        "output/together_v1/patches/patch_BLUE+RED_samples.h5".toList] := by
    simp only [readmeFits, List.map_cons, List.map_nil, colorRoot, h1, h2, h3]
    decide +kernel
  refine ⟨h, ?_⟩
  rw [h]
  decide +kernel

/-- Three images in two bands. -/
example : ∀ b : String, b ∈ ["RED", "BLUE", "RED"] ↔ b = "BLUE" ∨ b = "RED" := by
  intro b
  simp
  tauto

/-! ## Dithers and mosaics -/

/-- `front*back` as it is meant. -/
theorem globs_iff (front back p : List Char) :
    globs front back p = true ↔ ∃ m, p = front ++ (m ++ back) ∧ '/' ∉ m ++ back := by
  unfold globs
  simp only [Bool.and_eq_true, List.isPrefixOf_iff_prefix, List.isSuffixOf_iff_suffix, Bool.not_eq_true']
  constructor
  · rintro ⟨⟨⟨r, rfl⟩, h2⟩, h3⟩
    rw [List.drop_left] at h2 h3
    obtain ⟨m, rfl⟩ := h2
    exact ⟨m, rfl, by simpa using h3⟩
  · rintro ⟨m, rfl, h⟩
    rw [List.drop_left]
    exact ⟨⟨⟨_, rfl⟩, ⟨m, rfl⟩⟩, by simpa using h⟩

/-- C163 (files): a fit takes exactly the files of the directory whose path begins with what it was given and ends in ".fits",
in the same directory. -/
theorem C163_files (dir : List (List Char)) (base p : List Char) :
    p ∈ fitFiles dir base ↔ p ∈ dir ∧ ∃ m, p = base ++ (m ++ ".fits".toList) ∧ '/' ∉ m := by
  unfold fitFiles
  rw [List.mem_filter, globs_iff]
  have h : '/' ∉ ".fits".toList := by decide
  constructor
  · rintro ⟨h1, m, h2, h3⟩
    exact ⟨h1, m, h2, fun k => h3 (List.mem_append_left _ k)⟩
  · rintro ⟨h1, m, h2, h3⟩
    exact ⟨h1, m, h2, fun k => (List.mem_append.1 k).elim h3 h⟩

theorem globs_append (pre front back p : List Char) : globs (pre ++ front) back (pre ++ p) = globs front back p := by
  rw [Bool.eq_iff_iff, globs_iff, globs_iff]
  constructor
  · rintro ⟨m, h1, h2⟩
    rw [List.append_assoc] at h1
    exact ⟨m, List.append_cancel_left h1, h2⟩
  · rintro ⟨m, h1, h2⟩
    exact ⟨m, by rw [h1, List.append_assoc], h2⟩

theorem dataNames_head : ∀ n ∈ dataNames, n.head? ≠ some '/' := by decide +kernel

/-- C163 (mosaic): after the commands of the readme, in whatever directory, each of the three fits reads its own images: the
mosaic, the nine dithers without their drizzled copies, and the deep image. -/
theorem C163_mosaic (outdir : List Char) :
    fitFiles (dataNames.map (join outdir)) (join outdir "mosaic".toList) = [join outdir "mosaic.fits".toList] ∧
    fitFiles (dataNames.map (join outdir)) (join outdir "deep".toList) = [join outdir "deep_00.fits".toList] ∧
    fitFiles (dataNames.map (join outdir)) (join outdir "dither".toList) =
      (["dither_00.fits", "dither_01.fits", "dither_02.fits", "dither_03.fits", "dither_04.fits", "dither_05.fits",
        "dither_06.fits", "dither_07.fits", "dither_08.fits"].map fun n => join outdir n.toList) := by
  obtain ⟨pre, -, h2, -, -⟩ := join_eq outdir
  have hm : dataNames.map (join outdir) = dataNames.map (pre ++ ·) :=
    List.map_congr_left fun n hn => h2 n (dataNames_head n hn)
  have key : ∀ base : List Char, base.head? ≠ some '/' →
      fitFiles (dataNames.map (join outdir)) (join outdir base) = (fitFiles dataNames base).map (pre ++ ·) := by
    intro base hb
    unfold fitFiles
    rw [hm, h2 base hb, List.filter_map]
    congr 1
    apply List.filter_congr
    intro n _
    exact globs_append pre base _ n
  refine ⟨?_, ?_, ?_⟩
  · rw [key _ (by decide), show fitFiles dataNames "mosaic".toList = ["mosaic.fits".toList] by decide +kernel,
      h2 _ (by decide)]
    rfl
  · rw [key _ (by decide), show fitFiles dataNames "deep".toList = ["deep_00.fits".toList] by decide +kernel,
      h2 _ (by decide)]
    rfl
  · rw [key _ (by decide), show fitFiles dataNames "dither".toList =
      (["dither_00.fits", "dither_01.fits", "dither_02.fits", "dither_03.fits", "dither_04.fits", "dither_05.fits",
        "dither_06.fits", "dither_07.fits", "dither_08.fits"].map fun n => n.toList) by decide +kernel, List.map_map]
    apply List.map_congr_left
    intro n hn
    have : ∀ n ∈ ["dither_00.fits", "dither_01.fits", "dither_02.fits", "dither_03.fits", "dither_04.fits", "dither_05.fits",
        "dither_06.fits", "dither_07.fits", "dither_08.fits"], n.toList.head? ≠ some '/' := by decide +kernel
    exact (h2 _ (this n hn)).symm

/-- The names of the readme are the ones that the scripts make. -/
theorem C163_mosaic_names (outdir : List Char) : ∀ i < 9,
    join outdir (dataNames.getD i []) = ditherName outdir "dither".toList i := by
  intro i hi
  have hf : ∀ i < 9, (dataNames.getD i []) = "dither".toList ++ '_' :: (fixed 2 0 (i : ℚ) ++ ".fits".toList) := by
    decide +kernel
  rw [hf i hi, ditherName]

theorem pad_first (k : Nat) : (padDigits 2 k).getLast? = some 0 ↔ k < 10 := by
  by_cases h : k < 10
  · refine ⟨fun _ => h, fun _ => ?_⟩
    interval_cases k <;> decide
  · refine ⟨fun hl => ?_, fun h' => absurd h' h⟩
    exfalso
    have hlen : 2 ≤ (Nat.digits 10 k).length := by
      by_contra hc
      have h1 : (Nat.digits 10 k).length ≤ 1 := by omega
      have := (Nat.digits_length_le_iff (b := 10) (by norm_num) k (k := 1)).1 h1
      omega
    have h0 : k ≠ 0 := by omega
    rw [padDigits, Nat.sub_eq_zero_of_le hlen, List.replicate_zero, List.append_nil] at hl
    have hne : Nat.digits 10 k ≠ [] := Nat.digits_ne_nil_iff_ne_zero.2 h0
    rw [List.getLast?_eq_some_getLast hne] at hl
    injection hl with hl
    exact Nat.getLast_digit_ne_zero 10 h0 hl

theorem rint_nat (n : Nat) : rint ((n : ℚ) * 10 ^ 0) = n := by
  rw [pow_zero, mul_one, rint]
  simp

/-- C163 (combining): the mosaic is made of the dithers with numbers below ten; the pattern of dithers has nine. -/
theorem C163_combine (outdir : List Char) (i : Nat) :
    combined outdir (ditherName outdir "dither".toList i) = true ↔ i < 10 := by
  obtain ⟨pre, -, h2, -, -⟩ := join_eq outdir
  have hd : ∀ c ∈ fixed 2 0 (i : ℚ), c.isDigit = true := fixed_digits 2 i
  have hx : ∀ x : List Char, ("dither".toList ++ '_' :: x).head? ≠ some '/' := by
    have k : "dither".toList = 'd' :: "ither".toList := by decide
    intro x
    rw [k]
    simp
  unfold combined ditherName
  rw [h2 _ (hx _), h2 "dither_0".toList (by decide), globs_append, globs_iff,
    ← pad_first, show "dither_0".toList = "dither".toList ++ '_' :: ['0'] by decide]
  have hf : fixed 2 0 (i : ℚ) = ((padDigits 2 i).map digitChar).reverse := by
    rw [fixed, if_pos rfl, rint_nat]
  have hdig : ∀ n < 10, digitChar n = '0' → n = 0 := by decide
  constructor
  · rintro ⟨m, h, -⟩
    rw [List.append_assoc] at h
    have h := List.append_cancel_left h
    rw [List.cons_append] at h
    injection h with _ h
    have hh := congrArg List.head? h
    rw [hf] at hh
    have hne : padDigits 2 i ≠ [] := by
      intro he
      have := Galsim.padDigits_length 2 i
      rw [he] at this
      simp at this
    rw [List.head?_append, List.head?_reverse, List.getLast?_map, List.getLast?_eq_some_getLast hne] at hh
    rw [List.getLast?_eq_some_getLast hne]
    simp only [Option.map_some, Option.some_or, List.cons_append, List.head?_cons, Option.some.injEq] at hh
    rw [hdig _ (padDigits_lt 2 i _ (List.getLast_mem hne)) hh]
  · intro h
    obtain ⟨l, hl⟩ := List.getLast?_eq_some_iff.1 h
    have e : fixed 2 0 (i : ℚ) = '0' :: (l.map digitChar).reverse := by
      rw [hf, hl, List.map_append, List.reverse_append]
      rfl
    refine ⟨(l.map digitChar).reverse ++ ".".toList, ?_, ?_⟩
    · rw [e]
      simp only [List.append_assoc, List.cons_append, List.nil_append]
      rfl
    · rw [e] at hd
      intro hm
      rw [List.append_assoc, List.mem_append] at hm
      rcases hm with hm | hm
      · exact absurd (hd _ (List.mem_cons_of_mem _ hm)) (by decide)
      · exact absurd hm (by decide)

/-- C163 (drizzled copies): they lie beside the dithers if no directory has "dither" in its name. -/
theorem C163_drizzle_partial (outdir : List Char) (h : ¬ "dither".toList <:+: outdir) (i : Nat) :
    drzName (ditherName outdir "dither".toList i) = ditherName outdir "drz_dither".toList i := by
  have hx : ∀ x : List Char, ("dither".toList ++ '_' :: x).head? ≠ some '/' := by
    have k : "dither".toList = 'd' :: "ither".toList := by decide
    intro x
    rw [k]
    simp
  have hy : ∀ x : List Char, ("drz_dither".toList ++ '_' :: x).head? ≠ some '/' := by
    have k : "drz_dither".toList = 'd' :: "rz_dither".toList := by decide
    intro x
    rw [k]
    simp
  have ht : pyReplace "dither".toList "drz_dither".toList ('_' :: (fixed 2 0 (i : ℚ) ++ ".fits".toList)) =
      '_' :: (fixed 2 0 (i : ℚ) ++ ".fits".toList) := by
    apply pyReplace_absent
    apply absent_of _ _ 'd' (by decide)
    intro hm
    rw [List.mem_cons, List.mem_append] at hm
    rcases hm with hm | hm | hm
    · exact absurd hm (by decide)
    · exact absurd (fixed_digits _ _ _ hm) (by decide)
    · exact absurd hm (by decide)
  unfold drzName ditherName
  by_cases hc : outdir = [] ∨ outdir.getLast? = some '/'
  · rw [join, if_neg (hx _), if_pos hc, join, if_neg (hy _), if_pos hc]
    rcases hc with rfl | hc
    · rw [List.nil_append, List.nil_append, pyReplace_here _ _ _ (by decide), ht]
    · obtain ⟨e, rfl⟩ := List.getLast?_eq_some_iff.1 hc
      have he : ¬ "dither".toList <:+: e := fun ⟨a, b, k⟩ => h ⟨a, b ++ ['/'], by rw [← k]; simp⟩
      rw [List.append_assoc, List.append_assoc, List.singleton_append, List.singleton_append,
        pyReplace_past _ _ (by decide) '/' (by decide) _ _ he, pyReplace_here _ _ _ (by decide), ht]
  · rw [join, if_neg (hx _), if_neg hc, join, if_neg (hy _), if_neg hc,
      pyReplace_past _ _ (by decide) '/' (by decide) _ _ h, pyReplace_here _ _ _ (by decide), ht]

/-- C163 (drizzled copies, refuted): with the images in "dithers" the copies go to a directory "drz_dithers", which nobody
makes. -/
theorem C163_drizzle_refuted : ditherName "dithers".toList "dither".toList 3 = "dithers/dither_03.fits".toList ∧
    drzName "dithers/dither_03.fits".toList = "drz_dithers/drz_dither_03.fits".toList := by
  constructor <;> decide +kernel

/-- The default directory. -/
example : ¬ "dither".toList <:+: "./data".toList := by decide +kernel

/-- C163 (mosaic): the output of a fit is named after the images, in the directory asked for. -/
theorem C163_mosaic_out (outdir a b : List Char) (hb : '/' ∉ b) :
    samplesName (mosaicRoot outdir (a ++ '/' :: b)) = samplesName (join outdir b) ∧
    samplesName (mosaicRoot outdir b) = samplesName (join outdir b) := by
  unfold mosaicRoot
  rw [(basename_eq a b hb).1, (basename_eq a b hb).2]
  exact ⟨rfl, rfl⟩

/-! ## Pairs and the basic demonstration -/

/-- C163 (pair): an image in a directory is written there. -/
theorem C163_pair_partial (a b : List Char) (hb : '/' ∉ b) (ha : a ≠ []) (hl : a.getLast? ≠ some '/') :
    pairImage (a ++ '/' :: b) = some (a ++ '/' :: b) := by
  rw [pairImage, (dirname_eq a b hb ha hl).1, if_neg ha]

/-- C163 (pair, refuted): a name without a directory, such as `pair.fits`, is refused. -/
theorem C163_pair_refuted (b : List Char) (hb : '/' ∉ b) : pairImage b = none := by
  have : dirname b = [] := (dirname_eq ['a'] b hb (by decide) (by decide)).2
  rw [pairImage, if_pos this]

/-- C163 (pair): the chain of a pair is where the figures look for it unless told otherwise. -/
theorem C163_pair_root : samplesName (pairRoot "./output/v1".toList) = "./output/v1/patches/patch1_samples.h5".toList := by
  decide +kernel

/-- C163 (basic): the figures are written beside the chain, under its name, if the chain is in a directory. -/
theorem C163_basic_partial (a b kind : List Char) (hb : '/' ∉ b) (ha : a ≠ []) (hl : a.getLast? ≠ some '/')
    (hh : ¬ ".h5".toList <:+: b) :
    figureName (a ++ '/' :: b) kind = a ++ '/' :: (b ++ ("_samples".toList ++ '_' :: (kind ++ ".png".toList))) := by
  have hs : samplesName (a ++ '/' :: b) = a ++ '/' :: (b ++ "_samples.h5".toList) := by
    unfold samplesName
    rw [List.append_assoc, List.cons_append]
  have hn : '/' ∉ b ++ "_samples.h5".toList := by
    rw [List.mem_append]
    rintro (h | h)
    · exact hb h
    · exact absurd h (by decide)
  have hr : pyReplace ".h5".toList [] (b ++ "_samples.h5".toList) = b ++ "_samples".toList := by
    have e1 : "_samples.h5".toList = '_' :: "samples.h5".toList := by decide +kernel
    have e2 : pyReplace ".h5".toList [] "samples.h5".toList = "samples".toList := by decide +kernel
    have e3 : "_samples".toList = '_' :: "samples".toList := by decide +kernel
    rw [e1, pyReplace_past _ _ (by decide) '_' (by decide) _ _ hh, e2, e3]
  unfold figureName
  simp only [hs]
  rw [(dirname_eq a _ hn ha hl).1, (basename_eq a _ hn).1, hr, List.append_assoc]

/-- C163 (basic, refuted): without a directory they are written to the root of the file system. -/
theorem C163_basic_refuted (b kind : List Char) (hb : '/' ∉ b) : ∃ n, figureName b kind = '/' :: n := by
  have hn : '/' ∉ b ++ "_samples.h5".toList := by
    rw [List.mem_append]
    rintro (h | h)
    · exact hb h
    · exact absurd h (by decide)
  unfold figureName samplesName
  simp only [(dirname_eq ['a'] _ hn (by decide) (by decide)).2]
  exact ⟨_, rfl⟩

/-- C163 (basic): the output of basic.py is in a directory of its own, both named by the tag. -/
theorem C163_basic_root (tag : List Char) (h : tag.head? ≠ some '/') (hl : tag.getLast? ≠ some '/') (hne : tag ≠ []) :
    basicRoot tag = "./tests/".toList ++ (tag ++ '/' :: tag) := by
  have k1 : "./tests/".toList = [] ∨ "./tests/".toList.getLast? = some '/' := by decide
  unfold basicRoot
  rw [join.eq_def "./tests/".toList tag, if_neg h, if_pos k1, join, if_neg h, if_neg, List.append_assoc]
  rintro (e | e)
  · exact hne (List.append_eq_nil_iff.1 e).2
  · rw [List.getLast?_append_of_ne_nil _ hne] at e
    exact hl e

/-- C163 (basic): two runs share their output exactly if their indices, radii, S/N and noise levels round alike, with one, three,
no and no decimals. -/
theorem C163_basic_tag (n r s z n' r' s' z' : ℚ) (hn : 0 ≤ n) (hr : 0 ≤ r) (hs : 0 ≤ s) (hz : 0 ≤ z)
    (hn' : 0 ≤ n') (hr' : 0 ≤ r') (hs' : 0 ≤ s') (hz' : 0 ≤ z') :
    basicTag n r s z = basicTag n' r' s' z' ↔
      (∃ k, Rounds 1 n k ∧ Rounds 1 n' k) ∧ (∃ k, Rounds 3 r k ∧ Rounds 3 r' k) ∧
      (∃ k, Rounds 0 s k ∧ Rounds 0 s' k) ∧ (∃ k, Rounds 0 z k ∧ Rounds 0 z' k) := by
  have hsep : ∀ (w d : Nat) (x y : ℚ) (word : List Char) (u v : List Char),
      fixed w d x ++ (('_' :: word) ++ u) = fixed w d y ++ (('_' :: word) ++ v) → fixed w d x = fixed w d y ∧ u = v := by
    intro w d x y word u v h
    obtain ⟨h1, h2⟩ := Galsim.split_at _ _ (word ++ u) (word ++ v) (Galsim.fixed_chars w d x) (Galsim.fixed_chars w d y) h
    exact ⟨h1, List.append_cancel_left h2⟩
  rw [← rint_iff 1 _ _ hn hn', ← rint_iff 3 _ _ hr hr', ← rint_iff 0 _ _ hs hs', ← rint_iff 0 _ _ hz hz',
    ← fixed_inj 2 1 (by norm_num), ← fixed_inj 4 3 (by norm_num), ← fixed_inj 3 0 (by norm_num) s,
    ← fixed_inj 1 0 (by norm_num) z]
  constructor
  · intro h
    unfold basicTag at h
    obtain ⟨h1, h⟩ := hsep 2 1 _ _ "rhalf".toList _ _ (List.append_cancel_left h)
    obtain ⟨h2, h⟩ := hsep 4 3 _ _ "snr".toList _ _ h
    obtain ⟨h3, h⟩ := hsep 3 0 _ _ "noise".toList _ _ h
    exact ⟨h1, h2, h3, h⟩
  · rintro ⟨h1, h2, h3, h4⟩
    unfold basicTag
    rw [h1, h2, h3, h4]

/-- The tag of the defaults, and where its figures go. -/
example : basicTag 2 (1 / 5) 100 0 = "sersic2.0_rhalf0.200_snr100_noise0".toList ∧
    figureName "./tests/t/t".toList "corner".toList = "./tests/t/t_samples_corner.png".toList := by
  constructor <;> decide +kernel

end Forcepho.Demo.Flow
