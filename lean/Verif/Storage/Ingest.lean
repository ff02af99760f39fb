import Verif.Storage.Props

/-! # Property C39 (masked pixels carry no weight) and C70 (ingesting twice) -/

set_option autoImplicit false
set_option linter.unusedSectionVars false

namespace Forcepho.Storage

section
variable {K : Type} [Field K] [LinearOrder K] [IsStrictOrderedRing K]

/-- The user's mask flags a pixel: any flag at all, or, with a bit mask, any of its bits. -/
def Flagged (mask : Mask) (bitmask i j : Nat) : Prop :=
  match mask with
  | .absent => False
  | .bool m => m i j = true ∧ (bitmask = 0 ∨ bitmask.testBit 0 = true)
  | .int m => (bitmask = 0 ∧ m i j ≠ 0) ∨ ∃ b, (m i j).testBit b = true ∧ bitmask.testBit b = true

/-- A pixel that must carry no weight. -/
def Unusable (t : ImSet K) (bitmask i j : Nat) : Prop :=
  t.im i j = none ∨ (∃ b, t.bkg = some b ∧ b i j = none) ∨ t.ierr i j = none ∨
  (∃ e, t.ierr i j = some e ∧ e < 0) ∨ Flagged t.mask bitmask i j

/-- The background at a pixel, zero if there is none or it is not finite. -/
def bkgAt (t : ImSet K) (i j : Nat) : K :=
  match t.bkg with
  | some b => (b i j).getD 0
  | none => 0

lemma and_ne_zero_iff (a b : Nat) :
    a &&& b ≠ 0 ↔ ∃ n, a.testBit n = true ∧ b.testBit n = true := by
  constructor
  · intro h
    by_contra hc
    push Not at hc
    apply h
    apply Nat.eq_of_testBit_eq
    intro n
    rw [Nat.testBit_and, Nat.zero_testBit]
    cases ha : a.testBit n
    · rfl
    · have := hc n ha
      simp at this
      simp [this]
  · rintro ⟨n, h1, h2⟩ h0
    have := congrArg (fun x => x.testBit n) h0
    simp [Nat.testBit_and, h1, h2] at this

/-- The mask that is applied, in the cases where it is boolean. -/
lemma combine_bools {bad : Nat → Nat → Bool} {mask : Mask} {bitmask : Nat}
    (h : ∀ m, mask = .int m → bitmask ≠ 0) :
    ∃ b, combine bad mask bitmask = .bools b ∧
      ∀ i j, b i j = true ↔ bad i j = true ∨ Flagged mask bitmask i j := by
  cases mask with
  | absent => exact ⟨bad, rfl, fun i j => by simp [Flagged]⟩
  | bool m =>
    by_cases h0 : bitmask = 0
    · refine ⟨fun i j => bad i j || m i j, by simp [combine, h0], fun i j => ?_⟩
      simp [Flagged, h0]
    · refine ⟨fun i j => bad i j || decide ((m i j).toNat &&& bitmask ≠ 0),
        by simp [combine, h0], fun i j => ?_⟩
      simp only [Bool.or_eq_true, decide_eq_true_eq, and_ne_zero_iff, Flagged, h0, false_or]
      cases hm : m i j
      · simp
      · simp only [Bool.toNat_true, true_and]
        refine or_congr Iff.rfl ⟨?_, fun h => ⟨0, by simp, h⟩⟩
        rintro ⟨n, h1, h2⟩
        cases n with
        | zero => exact h2
        | succ n => simp [Nat.testBit_succ] at h1
  | int m =>
    have h0 := h m rfl
    refine ⟨fun i j => bad i j || decide (m i j &&& bitmask ≠ 0), by simp [combine, h0],
      fun i j => ?_⟩
    simp only [Bool.or_eq_true, decide_eq_true_eq, and_ne_zero_iff, Flagged, h0, false_and, false_or]

lemma badPixel_iff (im ierr : Option K) :
    badPixel im ierr = true ↔ im = none ∨ ierr = none ∨ ∃ e, ierr = some e ∧ e < 0 := by
  cases im <;> cases ierr <;> simp [badPixel]

lemma subtract_none (t : ImSet K) (i j : Nat) :
    (subtractBkg t).1 i j = none ↔ t.im i j = none ∨ ∃ b, t.bkg = some b ∧ b i j = none := by
  unfold subtractBkg
  cases hb : t.bkg with
  | none => simp
  | some b =>
    cases him : t.im i j <;> cases hbi : b i j <;> simp [sub?, him, hbi]

lemma subtract_some {t : ImSet K} {i j : Nat} {v : K} (h : (subtractBkg t).1 i j = some v) :
    ∃ x, t.im i j = some x ∧ v = x - bkgAt t i j := by
  unfold subtractBkg at h
  cases hb : t.bkg with
  | none =>
    simp only [hb] at h
    exact ⟨v, h, by simp [bkgAt, hb]⟩
  | some b =>
    simp only [hb] at h
    cases him : t.im i j <;> cases hbi : b i j <;> simp [sub?, him, hbi] at h
    exact ⟨_, rfl, by simp [bkgAt, hb, hbi, h]⟩

/-- The factor applied. -/
def factor (conv : Option K) : K := conv.getD 1

/-- The outcome at one pixel: what a user expects to be kept. -/
structure Outcome (t : ImSet K) (bitmask : Nat) (conv : Option K) (i j : Nat) (v w : K) : Prop where
  unusable : Unusable t bitmask i j → w = 0 ∧ v = bkgAt t i j * factor conv
  usable : ¬ Unusable t bitmask i j → ∃ x e, t.im i j = some x ∧ t.ierr i j = some e ∧ 0 ≤ e ∧
    v = (x - bkgAt t i j) * factor conv ∧ w = e / factor conv

/-- Pixel-wise effect of ingestion with a boolean mask. -/
lemma ingest_pixels {t : ImSet K} {s : Nat} {nside : Nat × Nat} {bitmask : Nat} {conv : Option K}
    (hmask : ∀ m, t.mask = .int m → bitmask ≠ 0)
    (hx : t.nx % s = 0) (hy : t.ny % s = 0) (h1 : t.nx = nside.1) (h2 : t.ny = nside.2) :
    ∃ im ierr : Nat → Nat → K,
      ingest s nside bitmask conv t = .ok (superpixelize s t.nx t.ny im ierr,
        { t with im := fun i j => some (im i j), ierr := fun i j => some (ierr i j) }) ∧
      ∀ i j, Outcome t bitmask conv i j (im i j) (ierr i j) := by
  obtain ⟨b, hb, hbi⟩ := combine_bools
    (bad := fun i j => badPixel ((subtractBkg t).1 i j) (t.ierr i j)) hmask
  have hun : ∀ i j, b i j = true ↔ Unusable t bitmask i j := by
    intro i j
    rw [hbi, badPixel_iff, subtract_none]
    simp only [Unusable, or_assoc]
  have hbk : ∀ i j, (if ((subtractBkg t).2 i j).isSome then (subtractBkg t).2 i j else some 0)
      = some (bkgAt t i j) := by
    intro i j
    unfold subtractBkg bkgAt
    cases t.bkg with
    | none => simp
    | some b => cases hbb : b i j <;> simp [hbb]
  -- the masked image and weights
  let im1 : Nat → Nat → K := fun i j =>
    (if b i j then bkgAt t i j else ((subtractBkg t).1 i j).getD 0) * factor conv
  let ie1 : Nat → Nat → K := fun i j => (if b i j then 0 else (t.ierr i j).getD 0) / factor conv
  have hfin : ∀ i j, b i j ≠ true → ∃ v e, (subtractBkg t).1 i j = some v ∧ t.ierr i j = some e := by
    intro i j hn
    rw [Ne, hbi, badPixel_iff] at hn
    push Not at hn
    obtain ⟨v, hv⟩ := Option.ne_none_iff_exists'.1 hn.1.1
    obtain ⟨e, he⟩ := Option.ne_none_iff_exists'.1 hn.1.2.1
    exact ⟨v, e, hv, he⟩
  have e1 : ∀ i j, (if b i j then
      (if ((subtractBkg t).2 i j).isSome then (subtractBkg t).2 i j else some 0)
      else (subtractBkg t).1 i j)
      = some (if b i j then bkgAt t i j else ((subtractBkg t).1 i j).getD 0) := by
    intro i j
    by_cases hbb : b i j = true
    · rw [if_pos hbb, if_pos hbb, hbk]
    · rw [if_neg hbb, if_neg hbb]
      obtain ⟨v, e, hv, -⟩ := hfin i j hbb
      rw [hv]; rfl
  have e2 : ∀ i j, (if b i j then some 0 else t.ierr i j)
      = some (if b i j then 0 else (t.ierr i j).getD 0) := by
    intro i j
    by_cases hbb : b i j = true
    · rw [if_pos hbb, if_pos hbb]
    · rw [if_neg hbb, if_neg hbb]
      obtain ⟨v, e, -, he⟩ := hfin i j hbb
      rw [he]; rfl
  have happ : applyMask t.nx t.ny (combine (fun i j => badPixel ((subtractBkg t).1 i j) (t.ierr i j))
      t.mask bitmask) (subtractBkg t).1 t.ierr (subtractBkg t).2 = .ok
      (fun i j => some (if b i j then bkgAt t i j else ((subtractBkg t).1 i j).getD 0),
       fun i j => some (if b i j then 0 else (t.ierr i j).getD 0)) := by
    rw [hb]
    simp only [applyMask]
    congr 2
    · funext i j; exact e1 i j
    · funext i j; exact e2 i j
  have hcal : calibrate conv
      (fun i j => some (if b i j then bkgAt t i j else ((subtractBkg t).1 i j).getD 0))
      (fun i j => some (if b i j then 0 else (t.ierr i j).getD 0))
      = (fun i j => some (im1 i j), fun i j => some (ie1 i j)) := by
    cases conv with
    | none => simp [calibrate, im1, ie1, factor]
    | some c => simp [calibrate, im1, ie1, factor, div_eq_mul_inv]
  have hsp : ∀ f g : Nat → Nat → K, superpixelize s t.nx t.ny (fun i j => some (f i j))
      (fun i j => some (g i j)) = (superpixelize s t.nx t.ny f g).map fun r => r.map fun p =>
        p.map some := by
    intro f g
    simp only [superpixelize, List.map_map]
    refine List.map_congr_left fun ii _ => ?_
    simp only [Function.comp, List.map_map]
    refine List.map_congr_left fun jj _ => ?_
    simp [block, List.map_flatten, Function.comp_def]
  refine ⟨im1, ie1, ?_, ?_⟩
  · unfold ingest
    simp only [happ, hcal]
    rw [if_neg (by simp [hx, hy]), if_neg (by simp [h1, h2]), hsp, if_pos]
    · simp [Function.comp_def]
    · simp
  · intro i j
    constructor
    · intro hu
      have hbt := (hun i j).2 hu
      simp [im1, ie1, hbt]
    · intro hu
      have hbt : b i j ≠ true := fun h => hu ((hun i j).1 h)
      obtain ⟨v, e, hv, he⟩ := hfin i j hbt
      obtain ⟨x, hx, rfl⟩ := subtract_some hv
      refine ⟨x, e, hx, he, ?_, ?_, ?_⟩
      · by_contra hneg
        exact hu (Or.inr (Or.inr (Or.inr (Or.inl ⟨e, he, not_le.1 hneg⟩))))
      · simp [im1, hbt, hv]
      · simp [ie1, hbt, he]

/-- **C39 (partial: boolean masks, or integer masks with a bit mask).** Ingestion of an image of the
store's size succeeds, and for every slot, with the coordinates `(i, j)` the store reports for it,
the stored weight is zero if the pixel is unusable (masked, or not finite, or of negative weight) with
a finite value, and otherwise the value is background-subtracted and calibrated and the weight
divided by the calibration factor. -/
theorem C39_weights_partial {t : ImSet K} {s : Nat} {nside : Nat × Nat} {bitmask : Nat}
    {conv : Option K} (hmask : ∀ m, t.mask = .int m → bitmask ≠ 0)
    (hx : s ∣ t.nx) (hy : s ∣ t.ny) (h1 : t.nx = nside.1) (h2 : t.ny = nside.2)
    (hnx : t.nx ≤ 32768) (hny : t.ny ≤ 32768) :
    ∃ sp t', ingest s nside bitmask conv t = .ok (sp, t') ∧
      ∀ ii jj k i j, at3 (pixelCoordinates s t.nx t.ny).1 ii jj k = some (some i) →
        at3 (pixelCoordinates s t.nx t.ny).2 ii jj k = some (some j) →
        ∃ v w, at3 sp ii jj k = some v ∧ at3 sp ii jj (s ^ 2 + k) = some w ∧
          Outcome t bitmask conv i j v w := by
  obtain ⟨im, ierr, he, ho⟩ := ingest_pixels (conv := conv) hmask
    (Nat.mod_eq_zero_of_dvd hx) (Nat.mod_eq_zero_of_dvd hy) h1 h2
  refine ⟨_, _, he, ?_⟩
  intro ii jj k i j hi hj
  obtain ⟨i', j', -, -, hi', hj', d1, d2⟩ := C38_labels hx hy hnx hny im ierr hi
  rw [hj] at hj'
  cases hi'
  cases hj'
  exact ⟨_, _, d1, d2, ho i j⟩

/-- **C39 (rejections).** A size that is not a multiple of the super-pixel size fails the
assertion, another size than the store's raises `ValueError`; nothing is stored. -/
theorem C39_sizes {t : ImSet K} {s : Nat} {nside : Nat × Nat} {bitmask : Nat} {conv : Option K}
    (hmask : ∀ m, t.mask = .int m → bitmask ≠ 0) :
    (¬ (t.nx % s = 0 ∧ t.ny % s = 0) → ingest s nside bitmask conv t = .error .assertionError) ∧
    (t.nx % s = 0 ∧ t.ny % s = 0 → ¬ (t.nx = nside.1 ∧ t.ny = nside.2) →
      ingest s nside bitmask conv t = .error .valueError) := by
  obtain ⟨b, hb, -⟩ := combine_bools
    (bad := fun i j => badPixel ((subtractBkg t).1 i j) (t.ierr i j)) hmask
  constructor
  · intro h
    unfold ingest
    simp only [hb, applyMask]
    rw [if_pos h]
  · intro h h'
    unfold ingest
    simp only [hb, applyMask]
    rw [if_neg (by simpa using h), if_pos h']

lemma hits_iff (nx ny : Nat) (v : Nat → Nat → Nat) (r : Nat) :
    hits nx ny v r = true ↔ ∃ i j, i < nx ∧ j < ny ∧ v i j = r := by
  simp only [hits, List.any_eq_true, List.mem_range, beq_iff_eq]
  constructor
  · rintro ⟨i, hi, j, hj, h⟩; exact ⟨i, j, hi, hj, h⟩
  · rintro ⟨i, j, hi, hj, h⟩; exact ⟨i, hi, j, hj, h⟩

/-- **C39 is refuted for integer masks without a bit mask**: the flags are used as row numbers.
After ingestion (no calibration) the weights of row `i` are zero if `i` occurs among the flags
(combined with the pixel test), and otherwise *unchanged*, whether the pixel is flagged or not. -/
theorem C39_refuted_integer_mask {t t' : ImSet K} {m : Nat → Nat → Nat} {s : Nat}
    {nside : Nat × Nat} {sp : List (List (List K))} (hm : t.mask = .int m)
    (h : ingest s nside 0 none t = .ok (sp, t')) (i j : Nat) :
    ((∃ a c, a < t.nx ∧ c < t.ny ∧
        (badPixel ((subtractBkg t).1 a c) (t.ierr a c)).toNat ||| m a c = i) →
      t'.ierr i j = some 0) ∧
    ((¬ ∃ a c, a < t.nx ∧ c < t.ny ∧
        (badPixel ((subtractBkg t).1 a c) (t.ierr a c)).toNat ||| m a c = i) →
      t'.ierr i j = t.ierr i j) := by
  unfold ingest at h
  simp only [hm, combine, if_true] at h
  split at h
  · cases h
  · rename_i im ierr happ
    split at h
    · cases h
    · split at h
      · cases h
      · split at h
        · cases h
          unfold applyMask at happ
          simp only at happ
          split at happ
          · cases happ
          · cases happ
            simp only [calibrate]
            constructor
            · intro hh
              rw [if_pos ((hits_iff _ _ _ _).2 hh)]
            · intro hh
              rw [if_neg (fun hc => hh ((hits_iff _ _ _ _).1 hc))]
        · cases h

/-- **C39, integer masks without a bit mask, the image.** The flags, and separately the flags
restricted to the lowest bit where the background is finite, are used as row numbers: rows of the
second kind are set to the background, other rows of the first kind to zero, all others keep the
background-subtracted values, whether flagged or not. -/
theorem C39_integer_mask_image {t t' : ImSet K} {m : Nat → Nat → Nat} {s : Nat}
    {nside : Nat × Nat} {sp : List (List (List K))} (hm : t.mask = .int m)
    (h : ingest s nside 0 none t = .ok (sp, t')) (i j : Nat) :
    let v := fun a c => (badPixel ((subtractBkg t).1 a c) (t.ierr a c)).toNat ||| m a c
    let low := ∃ a c, a < t.nx ∧ c < t.ny ∧
      v a c &&& (if ((subtractBkg t).2 a c).isSome then 1 else 0) = i
    let any := ∃ a c, a < t.nx ∧ c < t.ny ∧ v a c = i
    (low → t'.im i j = (subtractBkg t).2 i j) ∧
    (¬ low → any → t'.im i j = some 0) ∧
    (¬ low → ¬ any → t'.im i j = (subtractBkg t).1 i j) := by
  intro v low any
  have hlow : hits t.nx t.ny (fun a c => v a c &&& ((subtractBkg t).2 a c).isSome.toNat) i = true
      ↔ low := by
    rw [hits_iff]
    constructor <;>
    · rintro ⟨a, c, h1, h2, h3⟩
      refine ⟨a, c, h1, h2, ?_⟩
      cases hb : ((subtractBkg t).2 a c).isSome <;> simpa [hb] using h3
  have hany : hits t.nx t.ny v i = true ↔ any := hits_iff _ _ _ _
  unfold ingest at h
  simp only [hm, combine, if_true] at h
  split at h
  · cases h
  · rename_i im ierr happ
    split at h
    · cases h
    · split at h
      · cases h
      · split at h
        · cases h
          unfold applyMask at happ
          simp only at happ
          split at happ
          · cases happ
          · cases happ
            simp only [calibrate]
            refine ⟨fun hh => ?_, fun hh hh' => ?_, fun hh hh' => ?_⟩
            · exact if_pos (hlow.2 hh)
            · exact (if_neg (fun hc => hh (hlow.1 hc))).trans (if_pos (hany.2 hh'))
            · exact (if_neg (fun hc => hh (hlow.1 hc))).trans
                (if_neg (fun hc => hh' (hany.1 hc)))
        · cases h

/-- **C39, integer masks without a bit mask, failure.** The ingestion raises `IndexError` exactly
when some flag (combined with the pixel test) is at least the number of rows of the image. -/
theorem C39_integer_mask_fails {t : ImSet K} {m : Nat → Nat → Nat} {s : Nat}
    {nside : Nat × Nat} {conv : Option K} (hm : t.mask = .int m) :
    ingest s nside 0 conv t = .error .indexError ↔
      ∃ a c, a < t.nx ∧ c < t.ny ∧
        t.nx ≤ (badPixel ((subtractBkg t).1 a c) (t.ierr a c)).toNat ||| m a c := by
  have key : ((List.range t.nx).any fun a => (List.range t.ny).any fun c => decide (t.nx ≤
      (badPixel ((subtractBkg t).1 a c) (t.ierr a c)).toNat ||| m a c)) = true ↔
      ∃ a c, a < t.nx ∧ c < t.ny ∧
        t.nx ≤ (badPixel ((subtractBkg t).1 a c) (t.ierr a c)).toNat ||| m a c := by
    simp only [List.any_eq_true, List.mem_range, decide_eq_true_eq]
    constructor
    · rintro ⟨i, hi, j, hj, h⟩; exact ⟨i, j, hi, hj, h⟩
    · rintro ⟨i, j, hi, hj, h⟩; exact ⟨i, hi, j, hj, h⟩
  rw [← key]
  unfold ingest
  simp only [hm, combine, if_true, applyMask]
  split
  · rename_i e he
    split at he
    · rename_i hc
      cases he
      exact ⟨fun _ => hc, fun _ => rfl⟩
    · cases he
  · rename_i im ierr he
    split at he
    · cases he
    · rename_i hc
      constructor
      · intro h
        exfalso
        split at h
        · cases h
        · split at h
          · cases h
          · split at h <;> cases h
      · intro h; exact absurd h hc

/-- Concrete: flags of 3 in an image of three rows and two columns. -/
example : (ingest (K := ℚ) 1 (3, 2) 0 none
    ⟨3, 2, fun _ _ => some 5, fun _ _ => some 2, .int fun i j => if i = 2 ∧ j = 1 then 3 else 0,
      none⟩) = .error .indexError := (C39_integer_mask_fails rfl).2 ⟨2, 1, by decide, by decide,
        by decide +kernel⟩

/-- Concrete: a 3 by 3 image of good pixels of weight 2, one pixel (2,2) flagged with 1.  The
flagged pixel keeps its weight and rows 0 and 1 lose theirs. -/
example : (ingest (K := ℚ) 1 (3, 3) 0 none
    ⟨3, 3, fun _ _ => some 5, fun _ _ => some 2, .int fun i j => if i = 2 ∧ j = 2 then 1 else 0,
      none⟩).toOption.map (·.1)
    = some [[[0, 0], [0, 0], [0, 0]], [[0, 0], [0, 0], [0, 0]], [[5, 2], [5, 2], [5, 2]]] := by
  decide +kernel

/-- Non-vacuity of the positive part: the same image and flags with a bit mask, a background of 1
and a negative weight at (0,0). -/
example : (ingest (K := ℚ) 1 (3, 3) 1 (some 2)
    ⟨3, 3, fun i j => if i = 1 ∧ j = 1 then none else some 5,
      fun i j => if i = 0 ∧ j = 0 then some (-1) else some 2,
      .int fun i j => if i = 2 ∧ j = 2 then 3 else 0, some fun _ _ => some 1⟩).toOption.map (·.1)
    = some [[[2, 0], [8, 1], [8, 1]], [[8, 1], [2, 0], [8, 1]], [[8, 1], [8, 1], [2, 0]]] := by
  decide +kernel

/-! ## C70 ingesting the same image set twice -/

/-- **C70 is refuted**: the image is changed in place, so ingesting the same image set again
subtracts the background again: a usable pixel `x` with background `b` is first stored as `x - b`
and then as `x - b - b` (without calibration). -/
theorem C70_refuted {t : ImSet K} {s : Nat} {nside : Nat × Nat} {bitmask : Nat}
    (hmask : ∀ m, t.mask = .int m → bitmask ≠ 0)
    (hx : s ∣ t.nx) (hy : s ∣ t.ny) (h1 : t.nx = nside.1) (h2 : t.ny = nside.2) :
    ∃ sp t' sp' t'', ingest s nside bitmask none t = .ok (sp, t') ∧
      ingest s nside bitmask none t' = .ok (sp', t'') ∧
      ∀ i j x b, ¬ Unusable t bitmask i j → t.im i j = some x → bkgAt t i j = b →
        t'.im i j = some (x - b) ∧ t''.im i j = some (x - b - b) := by
  obtain ⟨im, ierr, he, ho⟩ := ingest_pixels (conv := none) hmask
    (Nat.mod_eq_zero_of_dvd hx) (Nat.mod_eq_zero_of_dvd hy) h1 h2
  set t' : ImSet K :=
    { t with im := fun i j => some (im i j), ierr := fun i j => some (ierr i j) } with ht'
  obtain ⟨im', ierr', he', ho'⟩ := ingest_pixels (t := t') (nside := nside) (conv := none)
    (bitmask := bitmask) (s := s) hmask
    (Nat.mod_eq_zero_of_dvd hx) (Nat.mod_eq_zero_of_dvd hy) h1 h2
  refine ⟨_, _, _, _, he, he', ?_⟩
  intro i j x b hu hxx hb
  obtain ⟨x', e, g1, g2, g3, g4, g5⟩ := (ho i j).usable hu
  rw [hxx] at g1
  cases g1
  rw [hb] at g4
  have hu' : ¬ Unusable t' bitmask i j := by
    intro hc
    rcases hc with hc | hc | hc | hc | hc
    · simp [ht'] at hc
    · exact hu (Or.inr (Or.inl hc))
    · simp [ht'] at hc
    · obtain ⟨e', he', hlt⟩ := hc
      simp [ht'] at he'
      subst he'
      rw [g5] at hlt
      simp [factor] at hlt
      exact absurd g3 (not_le.2 hlt)
    · exact hu (Or.inr (Or.inr (Or.inr (Or.inr hc))))
  obtain ⟨x'', e'', k1, -, -, k4, -⟩ := (ho' i j).usable hu'
  have hb' : bkgAt t' i j = b := hb
  rw [hb'] at k4
  have : x'' = im i j := by simpa [ht'] using k1.symm
  subst this
  have e0 : im i j = x - b := by rw [g4]; simp [factor]
  refine ⟨by simp [ht', e0], ?_⟩
  simp only [Option.some.injEq]
  rw [k4, e0]; simp [factor]

/-- **C70 (partial).** Without a background and without calibration, ingesting the image set again
stores the same super-pixels. -/
theorem C70_again_partial {t : ImSet K} {s : Nat} {nside : Nat × Nat} {bitmask : Nat}
    (hmask : ∀ m, t.mask = .int m → bitmask ≠ 0) (hbkg : t.bkg = none)
    (hx : s ∣ t.nx) (hy : s ∣ t.ny) (h1 : t.nx = nside.1) (h2 : t.ny = nside.2) :
    ∃ sp t' t'', ingest s nside bitmask none t = .ok (sp, t') ∧
      ingest s nside bitmask none t' = .ok (sp, t'') := by
  obtain ⟨im, ierr, he, ho⟩ := ingest_pixels (conv := none) hmask
    (Nat.mod_eq_zero_of_dvd hx) (Nat.mod_eq_zero_of_dvd hy) h1 h2
  set t' : ImSet K :=
    { t with im := fun i j => some (im i j), ierr := fun i j => some (ierr i j) } with ht'
  obtain ⟨im', ierr', he', ho'⟩ := ingest_pixels (t := t') (nside := nside) (conv := none)
    (bitmask := bitmask) (s := s) hmask
    (Nat.mod_eq_zero_of_dvd hx) (Nat.mod_eq_zero_of_dvd hy) h1 h2
  have hb0 : ∀ i j, bkgAt t i j = 0 := by intro i j; simp [bkgAt, hbkg]
  have hb0' : ∀ i j, bkgAt t' i j = 0 := hb0
  have key : ∀ i j, im' i j = im i j ∧ ierr' i j = ierr i j := by
    intro i j
    by_cases hu' : Unusable t' bitmask i j
    · have hf : Flagged t.mask bitmask i j := by
        rcases hu' with hc | hc | hc | hc | hc
        · simp [ht'] at hc
        · simp [ht', hbkg] at hc
        · simp [ht'] at hc
        · exfalso
          obtain ⟨e', he', hlt⟩ := hc
          simp [ht'] at he'
          subst he'
          by_cases hu : Unusable t bitmask i j
          · rw [((ho i j).unusable hu).1] at hlt; exact lt_irrefl _ hlt
          · obtain ⟨-, e, -, -, g3, -, g5⟩ := (ho i j).usable hu
            rw [g5] at hlt
            simp [factor] at hlt
            exact absurd g3 (not_le.2 hlt)
        · exact hc
      obtain ⟨a1, a2⟩ := (ho i j).unusable (Or.inr (Or.inr (Or.inr (Or.inr hf))))
      obtain ⟨b1, b2⟩ := (ho' i j).unusable hu'
      rw [a1, a2, b1, b2, hb0, hb0']
      exact ⟨rfl, rfl⟩
    · obtain ⟨x, e, k1, k2, -, k4, k5⟩ := (ho' i j).usable hu'
      have e1 : x = im i j := by simpa [ht'] using k1.symm
      have e2 : e = ierr i j := by simpa [ht'] using k2.symm
      rw [k4, k5, e1, e2, hb0']
      simp [factor]
  refine ⟨_, _, { t' with im := fun i j => some (im' i j), ierr := fun i j => some (ierr' i j) },
    he, ?_⟩
  rw [he']
  have f1 : im' = im := by funext i j; exact (key i j).1
  have f2 : ierr' = ierr := by funext i j; exact (key i j).2
  rw [f1, f2]

/-- Concrete: an image of 5 with background 1 is stored as 4, then as 3. -/
example :
    let t : ImSet ℚ := ⟨1, 1, fun _ _ => some 5, fun _ _ => some 2, .absent, some fun _ _ => some 1⟩
    (((ingest 1 (1, 1) 0 none t).toOption.map fun r => (r.1, (ingest 1 (1, 1) 0 none r.2).toOption.map
      (·.1))) = some ([[[4, 2]]], some [[[3, 2]]])) := by
  decide +kernel

end

end Forcepho.Storage
