import Verif.Patch.Props
import Verif.Util
import Mathlib.Data.List.Sort
import Mathlib.Algebra.Order.Field.Rat
import Mathlib.Tactic.NormNum

/-! # Properties C42 (reshaping), C43 (padding), C44, C45 and C46 -/

set_option autoImplicit false
set_option linter.unusedSectionVars false

namespace Forcepho.Patch

/-! ## C42: reshaping residuals to stamps -/

lemma reshape_flatten {α : Type} (w : Nat) (rows : List (List α))
    (hw : ∀ r ∈ rows, r.length = w) : reshape rows.length w rows.flatten = .ok rows := by
  have hl := Util.length_flatten_const rows hw
  simp only [reshape, hl, if_true]
  congr 1
  apply List.ext_getElem?
  intro k
  by_cases hk : k < rows.length
  · rw [List.getElem?_map, List.getElem?_range hk, List.getElem?_eq_getElem hk]
    simp only [Option.map_some, Option.some.injEq]
    have hs := flatten_slice rows k rows[k] (List.getElem?_eq_getElem hk)
    have hsum : ((rows.take k).map List.length).sum = k * w := by
      have := Util.length_flatten_const (rows.take k) fun l hl => hw l (List.mem_of_mem_take hl)
      rw [List.length_flatten, List.length_take, min_eq_left (by omega)] at this
      exact this
    rw [hsum, hw _ (List.getElem_mem hk)] at hs
    exact hs
  · rw [List.getElem?_eq_none (by simpa using hk), List.getElem?_eq_none (by omega)]

lemma mapM_ok {α γ : Type} (f : α → Except Err γ) (g : α → γ) (l : List α)
    (h : ∀ x ∈ l, f x = .ok (g x)) : l.mapM f = .ok (l.map g) := by
  induction l with
  | nil => rfl
  | cons x l ih =>
    rw [List.mapM_cons, h x (by simp), ih fun y hy => h y (by simp [hy])]
    rfl

/-- **C42**, stamps: if every exposure holds the pixels of a rectangular stamp followed by padding,
unpacking with reshaping returns the stamps, without the padding. -/
theorem C42_reshape {α : Type} (items : List (List (List α) × Nat × List α)) (hne : items ≠ [])
    (hw : ∀ it ∈ items, ∀ r ∈ it.1, r.length = it.2.1) :
    unpackReshaped (items.map fun it => it.1.flatten ++ it.2.2).flatten
      (items.map fun it => (it.1.flatten ++ it.2.2).length)
      (items.map fun it => (it.1.length, it.2.1)) = .ok (items.map (·.1)) := by
  have h1 : (items.map fun it => (it.1.flatten ++ it.2.2).length) =
      (items.map fun it => it.1.flatten ++ it.2.2).map List.length := by
    rw [List.map_map]; rfl
  have h2 : unpackResiduals (items.map fun it => it.1.flatten ++ it.2.2).flatten
      (items.map fun it => (it.1.flatten ++ it.2.2).length) =
      items.map fun it => it.1.flatten ++ it.2.2 := by
    rw [h1]
    simp only [unpackResiduals, cumsum]
    rw [cumsumFrom_dropLast]
    exact npSplit_flatten _ (by simpa using hne)
  have h3 : (items.map fun it => it.1.flatten ++ it.2.2).zip
      (items.map fun it => (it.1.length, it.2.1)) =
      items.map fun it => (it.1.flatten ++ it.2.2, (it.1.length, it.2.1)) := by
    rw [List.zip_map']
  simp only [unpackReshaped]
  rw [h2, h3, List.mapM_map]
  have h4 : (items.map (·.1)) = items.map fun it => it.1 := rfl
  rw [h4]
  apply mapM_ok
  intro it hit
  have hl := Util.length_flatten_const it.1 (hw it hit)
  simp only [Function.comp_apply]
  rw [← hl, List.take_left]
  exact reshape_flatten _ _ (hw it hit)

/-! ## C43: padding -/

/-- **C43**: padding a FITS exposure appends fewer than one warp of pixels, all without weight and
outside the image, and makes the number of pixels a multiple of the warp size. -/
theorem C43_fits {K : Type} [Field K] (warp : Nat) (hw : 0 < warp) (l : List (Pixel K)) :
    (fitsPadded warp l).length % warp = 0 ∧
    ∃ pad, fitsPadded warp l = l ++ pad ∧ pad.length < warp ∧
      ∀ p ∈ pad, p.ierr = 0 ∧ p.flux = 0 ∧ p.x = -1 ∧ p.y = -1 := by
  have hm := Nat.mod_lt l.length hw
  have hpad : fitsPad warp l.length < warp ∧ (l.length + fitsPad warp l.length) % warp = 0 := by
    simp only [fitsPad]
    by_cases h0 : l.length % warp = 0
    · rw [h0]
      simp only [Nat.sub_zero, ne_eq, not_true_eq_false, if_false, Nat.add_zero]
      exact ⟨hw, h0⟩
    · rw [if_pos (by omega)]
      refine ⟨by omega, ?_⟩
      have h1 : l.length + (warp - l.length % warp) = warp * (l.length / warp) + warp := by
        have := Nat.div_add_mod l.length warp
        omega
      rw [h1, ← Nat.mul_succ]
      exact Nat.mul_mod_right _ _
  refine ⟨by simpa [fitsPadded] using hpad.2, _, rfl, by simpa using hpad.1, ?_⟩
  intro p hp
  rw [List.eq_of_mem_replicate hp]
  simp

/-- **C43**: likewise for the static patch with its warp of 32. -/
theorem C43_static {K : Type} [Field K] (l : List (Pixel K)) :
    (staticPadded l).length % 32 = 0 ∧
    ∃ pad, staticPadded l = l ++ pad ∧ pad.length < 32 ∧ ∀ p ∈ pad, p.ierr = 0 ∧ p.flux = 0 := by
  refine ⟨?_, _, rfl, ?_, ?_⟩
  · simp only [staticPadded, List.length_append, List.length_replicate, staticPad]
    omega
  · simp only [List.length_replicate, staticPad]
    omega
  · intro p hp
    rw [List.eq_of_mem_replicate hp]
    simp

/-- **C43**: packing static stamps never fails its size assertion; every exposure range addresses
the padded stamp and the ranges fill the array. -/
theorem C43_staticPack {K : Type} [Field K] (stamps : List (List (Pixel K))) (hne : stamps ≠ []) :
    ∃ pix start N, staticPackPix stamps = .ok (pix, start, N) ∧
      N.length = stamps.length ∧ start.length = stamps.length ∧ N.sum = pix.length ∧
      ∀ (e s n : Nat), start[e]? = some s → N[e]? = some n →
        ∃ st, stamps[e]? = some st ∧ (pix.drop s).take n = staticPadded st := by
  have hlen : ∀ s : List (Pixel K), (staticPadded s).length = s.length + staticPad s.length := by
    intro s
    simp [staticPadded]
  have hN : (stamps.map fun s => s.length + staticPad s.length) =
      (stamps.map staticPadded).map List.length := by
    rw [List.map_map]
    exact List.map_congr_left fun s _ => (hlen s).symm
  have hsum : (stamps.map fun s => s.length + staticPad s.length).sum =
      totalPaddedSize (stamps.map List.length) := by
    simp only [totalPaddedSize, List.map_map]
    congr 1
    apply List.map_congr_left
    intro s _
    simp only [staticPad, Function.comp_apply]
    omega
  refine ⟨(stamps.map staticPadded).flatten,
    0 :: (cumsum (stamps.map fun s => s.length + staticPad s.length)).dropLast,
    stamps.map fun s => s.length + staticPad s.length, ?_, by simp, ?_, ?_, ?_⟩
  · simp only [staticPackPix]
    rw [if_pos hsum]
  · have := starts_length (stamps.map fun s => s.length + staticPad s.length) (by simpa using hne)
    rw [List.length_map] at this
    exact this
  · rw [List.length_flatten, ← hN]
  · intro e s n hs hn
    have hel := (List.getElem?_eq_some_iff.1 hn).1
    have hs' := starts_getElem? _ _ hel
    rw [show starts 0 (stamps.map fun s => s.length + staticPad s.length) =
      0 :: (cumsum (stamps.map fun s => s.length + staticPad s.length)).dropLast from rfl, hs,
      Option.some.injEq] at hs'
    rw [List.length_map] at hel
    refine ⟨stamps[e], List.getElem?_eq_getElem hel, ?_⟩
    have hb : (stamps.map staticPadded)[e]? = some (staticPadded stamps[e]) := by
      rw [List.getElem?_map, List.getElem?_eq_getElem hel]; rfl
    have := flatten_slice _ e _ hb
    rw [List.map_take, ← hN, ← hs', hlen] at this
    rw [List.getElem?_map, List.getElem?_eq_getElem hel] at hn
    simp only [Option.map_some, Option.some.injEq] at hn
    rw [← hn]
    exact this

/-! ## C44: signal to noise cap -/

section
variable {K : Type} [Field K] [LinearOrder K] [IsStrictOrderedRing K]

/-- **C44** (partial: the signal to noise is capped from above; the absolute value is not, see
`C44_refuted`).  For a positive cap and non-negative weight, the capped signal to noise is at most
the cap, the weight never increases and stays non-negative, a weight whose signal to noise is within
the cap is unchanged, and zero weights stay zero. -/
theorem C44_cap_partial (m flux ierr : K) (hm : 0 < m) (hi : 0 ≤ ierr) :
    flux * capSnr (some m) flux ierr ≤ m ∧ capSnr (some m) flux ierr ≤ ierr ∧
    0 ≤ capSnr (some m) flux ierr ∧ (0 ≤ flux → |flux| * capSnr (some m) flux ierr ≤ m) ∧
    (flux * ierr ≤ m → capSnr (some m) flux ierr = ierr) ∧
    (ierr = 0 → capSnr (some m) flux ierr = 0) ∧
    (0 < ierr → 0 < capSnr (some m) flux ierr) := by
  simp only [capSnr, if_neg (ne_of_gt hm)]
  by_cases h : 0 < ierr ∧ m < flux * ierr
  · have hf : 0 < flux := by
      by_contra hcon
      have := mul_nonpos_of_nonpos_of_nonneg (not_lt.1 hcon) hi
      linarith [h.2]
    rw [if_pos h]
    have hle : m / flux ≤ ierr := by
      rw [div_le_iff₀ hf, mul_comm]
      exact h.2.le
    have hp : 0 < m / flux := div_pos hm hf
    have he : flux * (m / flux) = m := mul_div_cancel₀ m (ne_of_gt hf)
    refine ⟨he.le, hle, hp.le, fun h0 => ?_, fun h1 => absurd h.2 (not_lt.2 h1),
      fun h0 => absurd h.1 (by rw [h0]; exact lt_irrefl _), fun _ => hp⟩
    rw [abs_of_nonneg h0, he]
  · rw [if_neg h]
    have hle : flux * ierr ≤ m := by
      rcases hi.lt_or_eq with h0 | h0
      · exact not_lt.1 fun h1 => h ⟨h0, h1⟩
      · rw [← h0, mul_zero]; exact hm.le
    exact ⟨hle, le_refl _, hi, fun h0 => by rw [abs_of_nonneg h0]; exact hle, fun _ => rfl, id, id⟩

/-- Capping keeps the order of weights of pixels with the same value. -/
theorem C44_order (m flux i j : K) (hm : 0 < m) (hij : i ≤ j) :
    capSnr (some m) flux i ≤ capSnr (some m) flux j := by
  simp only [capSnr, if_neg (ne_of_gt hm)]
  by_cases hj : 0 < j ∧ m < flux * j
  · have hf : 0 < flux := by
      by_contra hcon
      have := mul_nonpos_of_nonpos_of_nonneg (not_lt.1 hcon) hj.1.le
      linarith [hj.2]
    rw [if_pos hj]
    by_cases hi : 0 < i ∧ m < flux * i
    · rw [if_pos hi]
    · rw [if_neg hi]
      rcases lt_or_ge 0 i with h0 | h0
      · have : flux * i ≤ m := not_lt.1 fun h1 => hi ⟨h0, h1⟩
        rw [le_div_iff₀ hf, mul_comm]
        exact this
      · exact h0.trans (div_pos hm hf).le
  · rw [if_neg hj]
    by_cases hi : 0 < i ∧ m < flux * i
    · exfalso
      have hf : 0 < flux := by
        by_contra hcon
        have := mul_nonpos_of_nonpos_of_nonneg (not_lt.1 hcon) hi.1.le
        linarith [hi.2]
      exact hj ⟨hi.1.trans_le hij, hi.2.trans_le (mul_le_mul_of_nonneg_left hij hf.le)⟩
    · rw [if_neg hi]
      exact hij

/-- Without a cap nothing changes. -/
theorem C44_off (flux ierr : K) : capSnr none flux ierr = ierr ∧ capSnr (some 0) flux ierr = ierr :=
  by simp [capSnr]

end

/-- **C44** is false for negative values: their signal to noise is not capped. -/
theorem C44_refuted : ¬ ∀ m flux ierr : ℚ, 0 < m → 0 ≤ ierr →
    |flux| * capSnr (some m) flux ierr ≤ m := by
  intro h
  have := h 5 (-10) 1 (by norm_num) (by norm_num)
  norm_num [capSnr] at this

/-- A capped, an uncapped and a weightless pixel. -/
example : capSnr (some (5 : ℚ)) 10 1 = 1 / 2 ∧ capSnr (some (5 : ℚ)) 2 1 = 1 ∧
    capSnr (some (5 : ℚ)) 10 0 = 0 := by
  norm_num [capSnr]

/-! ## C45: PSF packing -/

section
variable {γ : Type}

lemma packSources_ok {total : Nat} {acc acc' : List γ} {s s' : Nat} {l : List (List γ)}
    (h : packSources total (acc, s) l = .ok (acc', s')) :
    s' = s + l.flatten.length ∧ (s' ≤ total → acc.length = s → acc' = acc ++ l.flatten) := by
  induction l generalizing acc s with
  | nil =>
    simp only [packSources, Except.ok.injEq, Prod.mk.injEq] at h
    obtain ⟨rfl, rfl⟩ := h
    simp
  | cons ps l ih =>
    simp only [packSources] at h
    split at h
    · cases h
    rename_i acc1 hput
    obtain ⟨h1, h2⟩ := ih h
    refine ⟨by rw [h1, List.flatten_cons, List.length_append]; omega, fun hs hacc => ?_⟩
    have hle : ¬ total < acc.length + ps.length := by omega
    simp only [putPsf] at hput
    rw [if_neg (fun hc => hle hc.1), if_neg hle] at hput
    simp only [Except.ok.injEq] at hput
    subst hput
    rw [h2 hs (by rw [List.length_append, hacc])]
    simp

lemma packExposures_ok {total : Nat} {acc acc' : List γ} {s s' : Nat} {starts0 starts' : List Nat}
    {l : List (List (List γ))}
    (h : packExposures total (acc, s) starts0 l = .ok ((acc', s'), starts')) :
    s' = s + l.flatten.flatten.length ∧
    (s' ≤ total → acc.length = s → acc' = acc ++ l.flatten.flatten) ∧
    starts' = starts0 ++ (starts s (l.map fun e => e.flatten.length)).take l.length := by
  induction l generalizing acc s starts0 with
  | nil =>
    simp only [packExposures, Except.ok.injEq, Prod.mk.injEq] at h
    obtain ⟨⟨rfl, rfl⟩, rfl⟩ := h
    simp
  | cons e l ih =>
    simp only [packExposures] at h
    split at h
    · cases h
    rename_i st1 hsrc
    obtain ⟨acc1, s1⟩ := st1
    obtain ⟨h1, h2, h3⟩ := ih h
    obtain ⟨h4, h5⟩ := packSources_ok hsrc
    refine ⟨?_, ?_, ?_⟩
    · rw [h1, h4]
      simp only [List.flatten_cons, List.flatten_append, List.length_append]
      omega
    · intro hs hacc
      have hacc1 := h5 (by omega) hacc
      rw [h2 hs (by rw [hacc1, h4, List.length_append, hacc]), hacc1]
      simp
    · rw [h3, h4, List.append_assoc]
      congr 1
      cases l with
      | nil => simp [starts]
      | cons y l => simp [starts, cumsumFrom]

lemma packSources_succeeds {total : Nat} {acc : List γ} {s : Nat} {l : List (List γ)}
    (hacc : acc.length = s) (ht : s + l.flatten.length ≤ total) :
    packSources total (acc, s) l = .ok (acc ++ l.flatten, s + l.flatten.length) := by
  induction l generalizing acc s with
  | nil => simp [packSources]
  | cons ps l ih =>
    rw [List.flatten_cons, List.length_append] at ht
    have hle : ¬ total < acc.length + ps.length := by omega
    simp only [packSources, putPsf]
    rw [if_neg (fun hc => hle hc.1), if_neg hle]
    simp only
    rw [ih (by rw [List.length_append, hacc]) (by omega)]
    simp [Nat.add_assoc]

lemma packExposures_succeeds {total : Nat} {acc : List γ} {s : Nat} {starts0 : List Nat}
    {l : List (List (List γ))}
    (hacc : acc.length = s) (ht : s + l.flatten.flatten.length ≤ total) :
    ∃ st', packExposures total (acc, s) starts0 l =
      .ok ((acc ++ l.flatten.flatten, s + l.flatten.flatten.length), st') := by
  induction l generalizing acc s starts0 with
  | nil => exact ⟨starts0, by simp [packExposures]⟩
  | cons e l ih =>
    rw [List.flatten_cons, List.flatten_append, List.length_append] at ht
    simp only [packExposures]
    rw [packSources_succeeds hacc (by omega)]
    simp only
    obtain ⟨st', h⟩ := ih (acc := acc ++ e.flatten) (s := s + e.flatten.length)
      (starts0 := starts0 ++ [s]) (by rw [List.length_append, hacc]) (by omega)
    refine ⟨st', ?_⟩
    rw [h]
    simp [Nat.add_assoc]

/-- **C45**, packing: whenever the packing succeeds, the packed array is the concatenation, exposure
by exposure and source by source, of the PSF gaussians; the recorded start addresses the first
gaussian of the exposure, and the blocks of the exposures do not overlap and fill the array. -/
theorem C45_blocks {nPsf nExp : List Nat} {nSources : Nat} {psfs : List (List (List γ))}
    {gs : List γ} {start : List Nat} (h : packPsf nPsf nExp nSources psfs = .ok (gs, start)) :
    gs = psfs.flatten.flatten ∧ start.length = psfs.length ∧
    gs.length = ((nPsf.zip nExp).map fun p => p.1 * p.2 * nSources).sum ∧
    (∀ (e : Nat) (blk : List (List γ)) (s : Nat), psfs[e]? = some blk → start[e]? = some s →
      (gs.drop s).take blk.flatten.length = blk.flatten ∧
      (e + 1 < psfs.length → start[e + 1]? = some (s + blk.flatten.length)) ∧
      (e + 1 = psfs.length → s + blk.flatten.length = gs.length)) := by
  simp only [packPsf] at h
  split at h
  · cases h
  rename_i acc s starts' hpk
  split at h
  case isFalse => cases h
  rename_i hs
  simp only [Except.ok.injEq, Prod.mk.injEq] at h
  obtain ⟨rfl, rfl⟩ := h
  obtain ⟨h1, h2, h3⟩ := packExposures_ok hpk
  have hgs := h2 (by omega) rfl
  rw [List.nil_append] at hgs h3
  have hflat : psfs.flatten.flatten = (psfs.map List.flatten).flatten := by
    rw [List.flatten_flatten]
  have hlens : (psfs.map fun e => e.flatten.length) = (psfs.map List.flatten).map List.length := by
    rw [List.map_map]; rfl
  have hst : ∀ e < psfs.length,
      starts'[e]? = some (((psfs.map List.flatten).take e).map List.length).sum := by
    intro e he
    rw [h3, List.getElem?_take_of_lt he, starts_getElem? _ _ (by simpa using he), hlens,
      ← List.map_take]
  refine ⟨hgs, ?_, ?_, ?_⟩
  · rw [h3]
    rcases psfs.eq_nil_or_concat with h0 | ⟨_, _, h0⟩
    · simp [h0]
    · rw [List.length_take, starts_length _ (by rw [h0]; simp), List.length_map, min_self]
  · rw [hgs, ← hs, h1, Nat.zero_add]
  · intro e blk s' hblk hs'
    have hel := (List.getElem?_eq_some_iff.1 hblk).1
    rw [hst e hel, Option.some.injEq] at hs'
    have hb : (psfs.map List.flatten)[e]? = some blk.flatten := by
      rw [List.getElem?_map, hblk]; rfl
    have hsucc : (((psfs.map List.flatten).take (e + 1)).map List.length).sum =
        s' + blk.flatten.length := by
      rw [List.take_add_one, hb, ← hs']
      simp
    refine ⟨?_, ?_, ?_⟩
    · rw [hgs, hflat, ← hs']
      exact flatten_slice _ e _ hb
    · intro he
      rw [hst (e + 1) he, hsucc]
    · intro he
      rw [← hsucc, hgs, hflat, List.length_flatten]
      congr 2
      rw [List.take_of_length_le]
      simp; omega

/-- **C45**, packing: if in each band the store returns as many gaussians per source as it
advertises, packing succeeds.  `groups` lists the exposures band by band. -/
theorem C45_succeeds (nSources : Nat) (groups : List (Nat × List (List (List γ))))
    (hsrc : ∀ g ∈ groups, ∀ e ∈ g.2, e.length = nSources ∧ ∀ ps ∈ e, ps.length = g.1) :
    ∃ gs start, packPsf (groups.map (·.1)) (groups.map fun g => g.2.length) nSources
      (groups.map (·.2)).flatten = .ok (gs, start) := by
  have hlen : (groups.map (·.2)).flatten.flatten.flatten.length =
      (((groups.map (·.1)).zip (groups.map fun g => g.2.length)).map
        fun p => p.1 * p.2 * nSources).sum := by
    rw [List.zip_map', List.map_map]
    induction groups with
    | nil => rfl
    | cons g l ih =>
      have ih' := ih fun g' hg' => hsrc g' (by simp [hg'])
      simp only [List.map_cons, List.flatten_cons, List.flatten_append, List.length_append,
        List.sum_cons, ih', Function.comp_apply]
      congr 1
      have hw : ∀ ps ∈ g.2.flatten, ps.length = g.1 := by
        intro ps hps
        obtain ⟨e, he, hpe⟩ := List.mem_flatten.1 hps
        exact (hsrc g (by simp) e he).2 ps hpe
      rw [Util.length_flatten_const _ hw,
        Util.length_flatten_const _ fun e he => (hsrc g (by simp) e he).1]
      ring
  obtain ⟨st', h⟩ := packExposures_succeeds (γ := γ) (acc := []) (s := 0) (starts0 := [])
    (total := (((groups.map (·.1)).zip (groups.map fun g => g.2.length)).map
        fun p => p.1 * p.2 * nSources).sum) (l := (groups.map (·.2)).flatten) rfl (by omega)
  refine ⟨(groups.map (·.2)).flatten.flatten.flatten, st', ?_⟩
  simp only [packPsf]
  rw [h]
  simp only [List.nil_append, Nat.zero_add, hlen, if_true]

/-- Component `p` of source `g` in exposure `e` sits at the exposure's start plus `g*n + p`. -/
theorem C45_component {nPsf nExp : List Nat} {nSources : Nat} {psfs : List (List (List γ))}
    {gs : List γ} {start : List Nat} (h : packPsf nPsf nExp nSources psfs = .ok (gs, start))
    {e g p s n : Nat} {blk : List (List γ)} {ps : List γ} (hblk : psfs[e]? = some blk)
    (hs : start[e]? = some s) (hn : ∀ ps ∈ blk, ps.length = n) (hg : blk[g]? = some ps)
    (hp : p < n) : gs[s + (g * n + p)]? = ps[p]? := by
  obtain ⟨_, _, _, h4⟩ := C45_blocks h
  have h5 := (h4 e blk s hblk hs).1
  have hgl := (List.getElem?_eq_some_iff.1 hg).1
  have hlt : g * n + p < blk.flatten.length := by
    rw [Util.length_flatten_const blk hn]
    calc g * n + p < g * n + n := by omega
      _ = (g + 1) * n := by ring
      _ ≤ blk.length * n := Nat.mul_le_mul_right _ hgl
  have h6 : (gs.drop s)[g * n + p]? = blk.flatten[g * n + p]? := by
    conv_rhs => rw [← h5]
    rw [List.getElem?_take_of_lt hlt]
  rw [List.getElem?_drop] at h6
  rw [h6]
  exact Util.flatten_const blk hn hg hp

/-- **C45**, kernel (partial: only when all sources of the exposure have the same PSF, see
`C45_refuted`).  The gaussian the kernel reads for a source and component is that source's. -/
theorem C45_kernel_partial {nPsf nExp : List Nat} {nSources : Nat} {psfs : List (List (List γ))}
    {gs : List γ} {start : List Nat} (h : packPsf nPsf nExp nSources psfs = .ok (gs, start))
    {e g p : Nat} {blk : List (List γ)} {ps : List γ} (hblk : psfs[e]? = some blk)
    (hg : blk[g]? = some ps) (hsame : ∀ ps' ∈ blk, ps' = ps) (hp : p < ps.length) :
    kernelPsf gs start e g p = ps[p]? := by
  have hel := (List.getElem?_eq_some_iff.1 hblk).1
  obtain ⟨_, hl, _, _⟩ := C45_blocks h
  have hs : start[e]? = some start[e] := List.getElem?_eq_getElem (by omega)
  have h0 : blk[0]? = some ps := by
    have hgl := (List.getElem?_eq_some_iff.1 hg).1
    rw [List.getElem?_eq_getElem (by omega)]
    congr 1
    exact hsame _ (List.getElem_mem _)
  have := C45_component h hblk hs (n := ps.length) (fun ps' h' => by rw [hsame ps' h']) h0 hp
  simp only [kernelPsf, List.getD_eq_getElem?_getD, hs, Option.getD_some]
  simpa using this

/-- With source dependent PSFs the kernel gives the second source the PSF of the first. -/
theorem C45_first {nPsf nExp : List Nat} {nSources : Nat} {psfs : List (List (List γ))}
    {gs : List γ} {start : List Nat} (h : packPsf nPsf nExp nSources psfs = .ok (gs, start))
    {e g p n : Nat} {blk : List (List γ)} {ps : List γ} (hblk : psfs[e]? = some blk)
    (hn : ∀ ps ∈ blk, ps.length = n) (h0 : blk[0]? = some ps) (hp : p < n) :
    kernelPsf gs start e g p = ps[p]? := by
  have hel := (List.getElem?_eq_some_iff.1 hblk).1
  obtain ⟨_, hl, _, _⟩ := C45_blocks h
  have hs : start[e]? = some start[e] := List.getElem?_eq_getElem (by omega)
  have := C45_component h hblk hs hn h0 hp
  simp only [kernelPsf, List.getD_eq_getElem?_getD, hs, Option.getD_some]
  simpa using this

end

/-- One band, one exposure, two sources with different PSFs of one gaussian: the kernel uses
gaussian 7 for the second source instead of gaussian 8. -/
theorem C45_refuted : ∃ gs start, packPsf [1] [1] 2 [[[7], [8]]] = .ok (gs, start) ∧
    kernelPsf gs start 0 1 0 = some 7 := ⟨[7, 8], [0], by decide, by decide⟩

/-- Two bands with one and two gaussians, two sources, three exposures. -/
example : packPsf [1, 2] [2, 1] 2 [[[1], [2]], [[3], [4]], [[5, 6], [7, 8]]] =
    .ok ([1, 2, 3, 4, 5, 6, 7, 8], [0, 2, 4]) := by decide

/-- The packing asserts that the advertised sizes are right. -/
example : packPsf [2] [1] 2 [[[1], [2]]] = .error .assertionError := by decide

lemma cumsumFrom_mul (c a : Nat) (l : List Nat) :
    (cumsumFrom a l).map (fun x => x * c) = cumsumFrom (a * c) (l.map fun x => x * c) := by
  induction l generalizing a with
  | nil => rfl
  | cons n ns ih => simp [cumsumFrom, ih, Nat.add_mul]

/-- **C45**, static patches: the precomputed offsets are the cumulative numbers of gaussians of all
sources in the preceding exposures. -/
theorem C45_static {γ : Type} (nSources : Nat) (groups : List (Nat × List (List (List γ))))
    (hsrc : ∀ g ∈ groups, ∀ e ∈ g.2, e.length = nSources ∧ ∀ ps ∈ e, ps.length = g.1) (e : Nat)
    (he : e < (groups.map (·.2)).flatten.length) :
    (staticPsfStart (groups.map (·.1)) (groups.map fun g => g.2.length) nSources)[e]? =
      some (((groups.map (·.2)).flatten.take e).flatten.flatten.length) := by
  have h1 : (((groups.map (·.1)).zip (groups.map fun g => g.2.length)).map
      fun p => List.replicate p.2 p.1).flatten.map (fun x => x * nSources) =
      (groups.map (·.2)).flatten.map fun ex => ex.flatten.length := by
    rw [List.zip_map', List.map_map]
    clear he
    induction groups with
    | nil => rfl
    | cons g l ih =>
      simp only [List.map_cons, List.flatten_cons, List.map_append, Function.comp_apply]
      rw [ih fun g' hg' => hsrc g' (by simp [hg'])]
      congr 1
      rw [List.map_replicate]
      symm
      rw [List.eq_replicate_iff]
      refine ⟨by simp, ?_⟩
      intro n hn
      obtain ⟨ex, hex, rfl⟩ := List.mem_map.1 hn
      obtain ⟨h2, h3⟩ := hsrc g (by simp) ex hex
      rw [Util.length_flatten_const ex h3, h2]
      ring
  have h2 : staticPsfStart (groups.map (·.1)) (groups.map fun g => g.2.length) nSources =
      starts 0 ((groups.map (·.2)).flatten.map fun ex => ex.flatten.length) := by
    simp only [staticPsfStart, starts, cumsum]
    rw [List.map_dropLast, cumsumFrom_mul, h1, Nat.zero_mul]
  rw [h2, starts_getElem? _ _ (by rw [List.length_map]; exact he), ← List.map_take]
  congr 1
  rw [List.flatten_flatten, List.length_flatten, List.map_map]
  rfl

/-- The static PSF array is larger than its contents as soon as two bands are present: two bands of
one gaussian and one exposure each, one source, fill two of four entries. -/
theorem C45_static_refuted : ∃ nPsf bandN : List Nat, nPsf = [1, 1] ∧ bandN = [1, 1] ∧
    staticPsfSize nPsf 2 1 = 4 ∧ ((nPsf.zip bandN).map fun p => p.1 * p.2 * 1).sum = 2 :=
  ⟨[1, 1], [1, 1], rfl, rfl, by decide, by decide⟩

/-! ## C46: coordinates -/

section
variable {K : Type} [Field K] [LinearOrder K] [IsStrictOrderedRing K]

/-- **C46**, round trip: un-zeroing a zeroed scene restores it, whatever the reference. -/
theorem C46_roundtrip (z : Option (Sky K)) (scene : List (Sky K)) :
    unzerocoords (zerocoords z scene).2 (zerocoords z scene).1 = scene := by
  simp only [unzerocoords, zerocoords, List.map_map]
  conv_rhs => rw [← List.map_id scene]
  apply List.map_congr_left
  intro s _
  simp

/-- An explicit reference is used as given. -/
theorem C46_reference (z : Sky K) (scene : List (Sky K)) :
    (zerocoords (some z) scene).2 = z ∧
    ∀ (i : Nat) (s : Sky K), scene[i]? = some s → (zerocoords (some z) scene).1[i]? =
      some { ra := s.ra - z.ra, dec := s.dec - z.dec } := by
  refine ⟨rfl, fun i s hs => ?_⟩
  simp only [zerocoords, List.getElem?_map, hs, Option.map_some]

/-- **C46**, positions: after packing, the kernel puts each source at the pixel position of its
original coordinates, and for a proposed position the offset from the original coordinates is
mapped by the local matrix; the zero point cancels. -/
theorem C46_positions (wcs : Sky K → K × K) (cwAt : Sky K → M22 K) (scene : List (Sky K))
    (i : Nat) (s : Sky K) (hs : scene[i]? = some s) :
    ∃ s' a, (packMeta wcs cwAt scene).1[i]? = some s' ∧ (packMeta wcs cwAt scene).2.2[i]? = some a ∧
      kernelPosition a s' = wcs s ∧
      ∀ p : Sky K, kernelPosition a p =
        (let ref := (packMeta wcs cwAt scene).2.1
         let dra := p.ra + ref.ra - s.ra
         let ddec := p.dec + ref.dec - s.dec
         ((wcs s).1 + ((cwAt s).v11 * dra + (cwAt s).v12 * ddec),
          (wcs s).2 + ((cwAt s).v21 * dra + (cwAt s).v22 * ddec))) := by
  simp only [packMeta, zerocoords, packAstrometry, List.getElem?_map, hs, Option.map_some]
  refine ⟨_, _, rfl, rfl, ?_, ?_⟩
  · simp [kernelPosition]
  · intro p
    simp only [kernelPosition, sub_add_cancel]
    refine Prod.ext ?_ ?_ <;> simp only <;> ring

/-! ### The median -/

lemma sorted_mergeSort (l : List K) :
    (l.mergeSort (fun a b => decide (a ≤ b))).Pairwise (· ≤ ·) := by
  have := List.pairwise_mergeSort (le := fun a b : K => decide (a ≤ b))
    (by intro a b c; simpa using le_trans) (by intro a b; simpa using le_total a b) l
  simpa using this

lemma mergeSort_sub (l : List K) (c : K) :
    (l.map fun x => x - c).mergeSort (fun a b => decide (a ≤ b)) =
      (l.mergeSort (fun a b => decide (a ≤ b))).map fun x => x - c := by
  apply List.Perm.eq_of_pairwise (le := (· ≤ ·))
  · intro a b _ _; exact le_antisymm
  · exact sorted_mergeSort _
  · rw [List.pairwise_map]
    exact (sorted_mergeSort l).imp fun h => by linarith
  · exact (List.mergeSort_perm _ _).trans ((List.mergeSort_perm l _).map _).symm

/-- The median moves with the data. -/
theorem median_sub (l : List K) (c : K) (hl : l ≠ []) :
    median (l.map fun x => x - c) = median l - c := by
  have hpos : 0 < (l.mergeSort (fun a b => decide (a ≤ b))).length := by
    rw [List.length_mergeSort]
    exact List.length_pos_iff.2 hl
  simp only [median, mergeSort_sub, List.length_map]
  generalize l.mergeSort (fun a b => decide (a ≤ b)) = s at hpos ⊢
  have hget : ∀ k < s.length, (s.map fun x => x - c).getD k 0 = s.getD k 0 - c := by
    intro k hk
    simp [List.getD_eq_getElem?_getD, List.getElem?_map, List.getElem?_eq_getElem hk]
  split
  · rw [hget _ (by omega)]
  · rw [hget _ (by omega), hget _ (by omega)]
    ring

lemma countP_ge {α : Type} (P : α → Bool) (l : List α) (a b : Nat) (hab : a ≤ b)
    (hb : b ≤ l.length)
    (h : ∀ (i : Nat) (x : α), a ≤ i → i < b → l[i]? = some x → P x = true) :
    b - a ≤ l.countP P := by
  have h1 : ((l.take b).drop a).countP P ≤ l.countP P :=
    ((List.drop_sublist _ _).trans (List.take_sublist _ _)).countP_le
  have h2 : ((l.take b).drop a).countP P = ((l.take b).drop a).length := by
    rw [List.countP_eq_length]
    intro x hx
    obtain ⟨i, hi⟩ := List.mem_iff_getElem?.1 hx
    rw [List.getElem?_drop] at hi
    have hlt := (List.getElem?_eq_some_iff.1 hi).1
    rw [List.length_take] at hlt
    rw [List.getElem?_take_of_lt (by omega)] at hi
    exact h (a + i) x (by omega) (by omega) hi
  rw [List.length_drop, List.length_take] at h2
  omega

/-- At least half of the values are at most the median and at least half are at least it. -/
theorem median_halves (l : List K) (hl : l ≠ []) :
    l.length ≤ 2 * l.countP (fun x => decide (x ≤ median l)) ∧
    l.length ≤ 2 * l.countP (fun x => decide (median l ≤ x)) := by
  have hperm := List.mergeSort_perm l (fun a b => decide (a ≤ b))
  have hsort := sorted_mergeSort l
  have hpos := List.length_pos_iff.2 hl
  rw [← hperm.countP_eq, ← hperm.countP_eq, ← hperm.length_eq]
  rw [← hperm.length_eq] at hpos
  have hmed : median l = (let s := l.mergeSort (fun a b => decide (a ≤ b))
    if s.length % 2 = 1 then s.getD (s.length / 2) 0
    else (s.getD (s.length / 2 - 1) 0 + s.getD (s.length / 2) 0) / 2) := rfl
  generalize median l = m at hmed ⊢
  generalize l.mergeSort (fun a b => decide (a ≤ b)) = s at hpos hsort hmed ⊢
  have hD : ∀ (k : Nat) (hk : k < s.length), s.getD k 0 = s[k] := by
    intro k hk
    simp [List.getD_eq_getElem?_getD, List.getElem?_eq_getElem hk]
  have hmono : ∀ (i j : Nat) (hi : i < s.length) (hj : j < s.length), i ≤ j → s[i] ≤ s[j] := by
    intro i j hi hj hij
    rcases Nat.lt_or_eq_of_le hij with h | h
    · exact List.pairwise_iff_getElem.1 hsort i j hi hj h
    · subst h; exact le_refl _
  simp only at hmed
  by_cases hodd : s.length % 2 = 1
  · rw [if_pos hodd, hD _ (by omega)] at hmed
    have h1 := countP_ge (fun x => decide (x ≤ m)) s 0 (s.length / 2 + 1) (by omega) (by omega) (by
      intro i x _ hi hx
      obtain ⟨hil, rfl⟩ := List.getElem?_eq_some_iff.1 hx
      rw [hmed]
      simpa using hmono i (s.length / 2) hil (by omega) (by omega))
    have h2 := countP_ge (fun x => decide (m ≤ x)) s (s.length / 2) s.length (by omega) (by omega) (by
      intro i x hi _ hx
      obtain ⟨hil, rfl⟩ := List.getElem?_eq_some_iff.1 hx
      rw [hmed]
      simpa using hmono (s.length / 2) i (by omega) hil (by omega))
    omega
  · rw [if_neg hodd, hD _ (by omega), hD _ (by omega)] at hmed
    have h0 := hmono (s.length / 2 - 1) (s.length / 2) (by omega) (by omega) (by omega)
    have hlo : s[s.length / 2 - 1] ≤ m := by rw [hmed]; linarith
    have hhi : m ≤ s[s.length / 2] := by rw [hmed]; linarith
    have h1 := countP_ge (fun x => decide (x ≤ m)) s 0 (s.length / 2) (by omega) (by omega) (by
      intro i x _ hi hx
      obtain ⟨hil, rfl⟩ := List.getElem?_eq_some_iff.1 hx
      have := hmono i (s.length / 2 - 1) hil (by omega) (by omega)
      simpa using this.trans hlo)
    have h2 := countP_ge (fun x => decide (m ≤ x)) s (s.length / 2) s.length (by omega) (by omega) (by
      intro i x hi _ hx
      obtain ⟨hil, rfl⟩ := List.getElem?_eq_some_iff.1 hx
      have := hmono (s.length / 2) i (by omega) hil (by omega)
      simpa using hhi.trans this)
    omega

/-- **C46**, the default reference has at least half of the sources on either side, in both
coordinates. -/
theorem C46_central (scene : List (Sky K)) (hne : scene ≠ []) :
    let ref := (zerocoords none scene).2
    scene.length ≤ 2 * (scene.map (·.ra)).countP (fun x => decide (x ≤ ref.ra)) ∧
    scene.length ≤ 2 * (scene.map (·.ra)).countP (fun x => decide (ref.ra ≤ x)) ∧
    scene.length ≤ 2 * (scene.map (·.dec)).countP (fun x => decide (x ≤ ref.dec)) ∧
    scene.length ≤ 2 * (scene.map (·.dec)).countP (fun x => decide (ref.dec ≤ x)) := by
  have h1 := median_halves (scene.map (·.ra)) (by simpa using hne)
  have h2 := median_halves (scene.map (·.dec)) (by simpa using hne)
  rw [List.length_map] at h1 h2
  exact ⟨h1.1, h1.2, h2.1, h2.2⟩

/-- **C46** fails on repacking: packing the metadata of an already packed scene always sets the
reference to zero and evaluates the sky to pixel map at the zeroed coordinates. -/
theorem C46_repack (wcs : Sky K → K × K) (cwAt : Sky K → M22 K) (scene : List (Sky K))
    (hne : scene ≠ []) :
    let first := packMeta wcs cwAt scene
    let second := packMeta wcs cwAt first.1
    second.2.1 = { ra := 0, dec := 0 } ∧ second.1 = first.1 ∧
    ∀ (i : Nat) (s : Sky K), scene[i]? = some s → ∃ s' a, second.1[i]? = some s' ∧
      second.2.2[i]? = some a ∧
      kernelPosition a s' = wcs { ra := s.ra - first.2.1.ra, dec := s.dec - first.2.1.dec } := by
  intro first second
  have hra : ((scene.map fun s => Sky.mk (s.ra - median (scene.map (·.ra)))
      (s.dec - median (scene.map (·.dec)))).map (·.ra)) =
      (scene.map (·.ra)).map fun x => x - median (scene.map (·.ra)) := by
    simp only [List.map_map, Function.comp_def]
  have hdec : ((scene.map fun s => Sky.mk (s.ra - median (scene.map (·.ra)))
      (s.dec - median (scene.map (·.dec)))).map (·.dec)) =
      (scene.map (·.dec)).map fun x => x - median (scene.map (·.dec)) := by
    simp only [List.map_map, Function.comp_def]
  have href : second.2.1 = { ra := 0, dec := 0 } := by
    show Sky.mk (median (first.1.map (·.ra))) (median (first.1.map (·.dec))) = _
    have e1 : first.1.map (·.ra) = (scene.map (·.ra)).map fun x => x - median (scene.map (·.ra)) :=
      hra
    have e2 : first.1.map (·.dec) =
        (scene.map (·.dec)).map fun x => x - median (scene.map (·.dec)) := hdec
    rw [e1, e2, median_sub _ _ (by simpa using hne), median_sub _ _ (by simpa using hne)]
    simp
  have hscene : second.1 = first.1 := by
    show first.1.map (fun s => Sky.mk (s.ra - second.2.1.ra) (s.dec - second.2.1.dec)) = _
    rw [href]
    simp
  refine ⟨href, hscene, fun i s hs => ?_⟩
  have hfi : first.1[i]? = some { ra := s.ra - first.2.1.ra, dec := s.dec - first.2.1.dec } := by
    show (scene.map fun s => Sky.mk (s.ra - first.2.1.ra) (s.dec - first.2.1.dec))[i]? = _
    rw [List.getElem?_map, hs]
    rfl
  obtain ⟨s', a, h1, h2, h3, _⟩ := C46_positions wcs cwAt first.1 i _ hfi
  exact ⟨s', a, h1, h2, h3⟩

end

/-- A scene at right ascension 10: packed once the source is at pixel 10, packed again at pixel 0. -/
theorem C46_refuted : ∃ (scene : List (Sky ℚ)) (wcs : Sky ℚ → ℚ × ℚ) (cwAt : Sky ℚ → M22 ℚ),
    let first := packMeta wcs cwAt scene
    let second := packMeta wcs cwAt first.1
    (first.1.zip first.2.2).map (fun p => kernelPosition p.2 p.1) = [(10, 0)] ∧
    (second.1.zip second.2.2).map (fun p => kernelPosition p.2 p.1) = [(0, 0)] := by
  refine ⟨[{ ra := 10, dec := 0 }], fun s => (s.ra, s.dec), fun _ => ⟨1, 0, 0, 1⟩, ?_, ?_⟩ <;>
  norm_num [packMeta, zerocoords, packAstrometry, median, kernelPosition, List.mergeSort]

end Forcepho.Patch
