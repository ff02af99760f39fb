import Verif.Storage.Model
import Verif.Util
import Mathlib.Tactic.Linarith
import Mathlib.Tactic.Ring
import Mathlib.Tactic.NormNum
import Mathlib.Data.Finset.Card
import Mathlib.Data.Finset.Dedup

/-! # Properties C38 (super-pixel order) and C67 (PSF lookup) -/

set_option autoImplicit false
set_option linter.unusedSectionVars false

namespace Forcepho.Storage

/-! ## C38 -/

/-- Entry `k` of super-pixel `(ii, jj)`. -/
def at3 {α : Type} (l : List (List (List α))) (ii jj k : Nat) : Option α :=
  (l[ii]?).bind fun r => (r[jj]?).bind fun p => p[k]?

lemma block_length {α : Type} (s : Nat) (im : Nat → Nat → α) (ii jj : Nat) :
    (block s im ii jj).length = s ^ 2 := by
  unfold block
  rw [Util.length_flatten_const (w := s)]
  · simp [pow_two]
  · intro l hl
    obtain ⟨a, -, rfl⟩ := List.mem_map.1 hl
    simp

lemma block_get {α : Type} {s : Nat} (im : Nat → Nat → α) (ii jj : Nat) {k : Nat}
    (hk : k < s ^ 2) :
    (block s im ii jj)[k]? = some (im (ii * s + k / s) (jj * s + k % s)) := by
  have hs : 0 < s := by
    rcases Nat.eq_zero_or_pos s with rfl | h
    · simp at hk
    · exact h
  have hd : k / s < s := Nat.div_lt_of_lt_mul (by rwa [pow_two] at hk)
  have hm : k % s < s := Nat.mod_lt _ hs
  have hk' : k = (k / s) * s + k % s := by rw [Nat.mul_comm]; exact (Nat.div_add_mod k s).symm
  unfold block
  conv_lhs => rw [hk']
  rw [Util.flatten_const (w := s) (l := (List.range s).map fun b => im (ii * s + k / s) (jj * s + b))
    _ _ _ hm]
  · simp [hm]
  · intro l hl
    obtain ⟨a, -, rfl⟩ := List.mem_map.1 hl
    simp
  · simp [hd]

/-- The data half and the weight half of a super-pixel. -/
lemma superpixelize_at {α : Type} {s nx ny : Nat} (im ierr : Nat → Nat → α) {ii jj k : Nat}
    (hi : ii < nx / s) (hj : jj < ny / s) (hk : k < s ^ 2) :
    at3 (superpixelize s nx ny im ierr) ii jj k
      = some (im (ii * s + k / s) (jj * s + k % s)) ∧
    at3 (superpixelize s nx ny im ierr) ii jj (s ^ 2 + k)
      = some (ierr (ii * s + k / s) (jj * s + k % s)) := by
  have hp : ∀ n, at3 (superpixelize s nx ny im ierr) ii jj n
      = (block s im ii jj ++ block s ierr ii jj)[n]? := by
    intro n; simp [at3, superpixelize, hi, hj]
  constructor
  · rw [hp, List.getElem?_append_left (by rw [block_length]; exact hk), block_get _ _ _ hk]
  · rw [hp, List.getElem?_append_right (by rw [block_length]; omega), block_length,
      Nat.add_sub_cancel_left, block_get _ _ _ hk]

lemma at3_map {α β : Type} (l : List (List (List α))) (g : List α → List β) (ii jj k : Nat) :
    at3 (l.map fun r => r.map g) ii jj k
      = (l[ii]?).bind fun r => (r[jj]?).bind fun p => (g p)[k]? := by
  simp only [at3, List.getElem?_map]
  cases l[ii]? with
  | none => rfl
  | some r =>
    simp only [Option.map_some, Option.bind_some, List.getElem?_map]
    cases r[jj]? <;> rfl

lemma pixelCoordinates_some {s nx ny ii jj k : Nat} (hi : ii < nx / s) (hj : jj < ny / s)
    (hk : k < s ^ 2) :
    at3 (pixelCoordinates s nx ny).1 ii jj k = some (toInt16 (ii * s + k / s)) ∧
    at3 (pixelCoordinates s nx ny).2 ii jj k = some (toInt16 (jj * s + k % s)) := by
  have hr : ∀ g : List Nat → List (Option Nat),
      at3 ((superpixelize s nx ny (fun i _ => i) (fun _ j => j)).map fun r => r.map g) ii jj k
        = (g (block s (fun i _ => i) ii jj ++ block s (fun _ j => j) ii jj))[k]? := by
    intro g
    rw [at3_map]
    simp [superpixelize, hi, hj]
  unfold pixelCoordinates
  constructor
  · refine (hr fun p => (p.take (s ^ 2)).map toInt16).trans ?_
    rw [List.getElem?_map, List.getElem?_take_of_lt hk,
      List.getElem?_append_left (by rw [block_length]; exact hk), block_get _ _ _ hk]
    rfl
  · refine (hr fun p => (p.drop (s ^ 2)).map toInt16).trans ?_
    rw [List.getElem?_map, List.getElem?_drop,
      List.getElem?_append_right (by rw [block_length]; omega), block_length,
      Nat.add_sub_cancel_left, block_get _ _ _ hk]
    rfl

lemma pixelCoordinates_range {s nx ny ii jj k : Nat} {v : Option Nat}
    (h : at3 (pixelCoordinates s nx ny).1 ii jj k = some v) :
    ii < nx / s ∧ jj < ny / s ∧ k < s ^ 2 := by
  have hr : at3 ((superpixelize s nx ny (fun i _ => i) (fun _ j => j)).map
      fun r => r.map fun p => (p.take (s ^ 2)).map toInt16) ii jj k = some v := h
  rw [at3_map] at hr
  obtain ⟨r, h1, hr⟩ := Option.bind_eq_some_iff.1 hr
  obtain ⟨p, h2, hp⟩ := Option.bind_eq_some_iff.1 hr
  have hi : ii < nx / s := by
    have := (List.getElem?_eq_some_iff.1 h1).1
    simpa [superpixelize] using this
  have h1' : r = (List.range (ny / s)).map fun jj =>
      block s (fun i _ => i) ii jj ++ block s (fun _ j => j) ii jj := by
    simp [superpixelize, hi] at h1
    exact h1.symm
  have hj : jj < ny / s := by
    have := (List.getElem?_eq_some_iff.1 h2).1
    simpa [h1'] using this
  have hk := (List.getElem?_eq_some_iff.1 hp).1
  simp at hk
  exact ⟨hi, hj, hk.1⟩

lemma coord_lt {s nx ii k : Nat} (hs : s ∣ nx) (hi : ii < nx / s) (hk : k < s) :
    ii * s + k < nx := by
  obtain ⟨m, rfl⟩ := hs
  have hs0 : 0 < s := by omega
  rw [Nat.mul_div_cancel_left _ hs0] at hi
  calc ii * s + k < ii * s + s := by omega
    _ = (ii + 1) * s := by rw [Nat.succ_mul]
    _ ≤ m * s := Nat.mul_le_mul_right _ hi
    _ = s * m := Nat.mul_comm _ _

lemma mul_add_mod_lt {a s b : Nat} (h : b < s) : (a * s + b) % s = b := by
  rw [Nat.mul_comm, Nat.mul_add_mod]; exact Nat.mod_eq_of_lt h

/-- **C38 (every pixel exactly once).** For image sides divisible by the super-pixel size and
within the range of the stored coordinate type, every pixel `(i, j)` is the labelled coordinate of
exactly one slot. -/
theorem C38_every_pixel_once {s nx ny : Nat} (hx : s ∣ nx) (hy : s ∣ ny) (hnx : nx ≤ 32768)
    (hny : ny ≤ 32768) {i j : Nat} (hi : i < nx) (hj : j < ny) :
    ∃! t : Nat × Nat × Nat,
      at3 (pixelCoordinates s nx ny).1 t.1 t.2.1 t.2.2 = some (some i) ∧
      at3 (pixelCoordinates s nx ny).2 t.1 t.2.1 t.2.2 = some (some j) := by
  have hs : 0 < s := by
    rcases Nat.eq_zero_or_pos s with rfl | h
    · have := Nat.eq_zero_of_zero_dvd hx; omega
    · exact h
  have hi' : i / s < nx / s := Nat.div_lt_div_of_lt_of_dvd hx hi
  have hj' : j / s < ny / s := Nat.div_lt_div_of_lt_of_dvd hy hj
  have hmi : i % s < s := Nat.mod_lt _ hs
  have hmj : j % s < s := Nat.mod_lt _ hs
  have hk : (i % s) * s + j % s < s ^ 2 := by
    have : (i % s) * s + s ≤ s * s := by
      rw [← Nat.succ_mul]; exact Nat.mul_le_mul_right _ hmi
    rw [pow_two]; omega
  have hkd : ((i % s) * s + j % s) / s = i % s := by
    rw [Nat.add_comm, Nat.mul_comm, Nat.add_mul_div_left _ _ hs, Nat.div_eq_of_lt hmj]; omega
  have hkm : ((i % s) * s + j % s) % s = j % s := by
    rw [mul_add_mod_lt hmj]
  have hei : i / s * s + i % s = i := by rw [Nat.mul_comm]; exact Nat.div_add_mod i s
  have hej : j / s * s + j % s = j := by rw [Nat.mul_comm]; exact Nat.div_add_mod j s
  refine ⟨(i / s, j / s, (i % s) * s + j % s), ?_, ?_⟩
  · obtain ⟨h1, h2⟩ := pixelCoordinates_some hi' hj' hk
    simp only
    rw [h1, h2, hkd, hkm, hei, hej]
    exact ⟨by rw [toInt16, if_pos (by omega)], by rw [toInt16, if_pos (by omega)]⟩
  · rintro ⟨a, b, k⟩ ⟨h1, h2⟩
    simp only at h1 h2
    obtain ⟨ha, hb, hk'⟩ := pixelCoordinates_range h1
    obtain ⟨g1, g2⟩ := pixelCoordinates_some ha hb hk'
    rw [g1] at h1
    rw [g2] at h2
    have e1 : a * s + k / s = i := by
      have := Option.some.inj h1
      unfold toInt16 at this
      split at this
      · exact Option.some.inj this
      · cases this
    have e2 : b * s + k % s = j := by
      have := Option.some.inj h2
      unfold toInt16 at this
      split at this
      · exact Option.some.inj this
      · cases this
    have hkd' : k / s < s := Nat.div_lt_of_lt_mul (by rwa [pow_two] at hk')
    have hkm' : k % s < s := Nat.mod_lt _ hs
    have d1 : i / s = a := by
      rw [← e1, Nat.add_comm, Nat.mul_comm, Nat.add_mul_div_left _ _ hs, Nat.div_eq_of_lt hkd']; omega
    have d2 : j / s = b := by
      rw [← e2, Nat.add_comm, Nat.mul_comm, Nat.add_mul_div_left _ _ hs, Nat.div_eq_of_lt hkm']; omega
    have m1 : i % s = k / s := by rw [← e1, mul_add_mod_lt hkd']
    have m2 : j % s = k % s := by rw [← e2, mul_add_mod_lt hkm']
    rw [d1, d2, m1, m2]
    have : k = (k / s) * s + k % s := by rw [Nat.mul_comm]; exact (Nat.div_add_mod k s).symm
    rw [← this]

/-- **C38 (no mislabelled pixel).** Every slot that has coordinates holds, in the data half and at
the same place in the weight half, the image value and inverse error of the pixel of those
coordinates, which is a pixel of the image. -/
theorem C38_labels {α : Type} {s nx ny : Nat} (hx : s ∣ nx) (hy : s ∣ ny) (hnx : nx ≤ 32768)
    (hny : ny ≤ 32768) (im ierr : Nat → Nat → α) {ii jj k : Nat} {v : Option Nat}
    (h : at3 (pixelCoordinates s nx ny).1 ii jj k = some v) :
    ∃ i j, i < nx ∧ j < ny ∧ v = some i ∧
      at3 (pixelCoordinates s nx ny).2 ii jj k = some (some j) ∧
      at3 (superpixelize s nx ny im ierr) ii jj k = some (im i j) ∧
      at3 (superpixelize s nx ny im ierr) ii jj (s ^ 2 + k) = some (ierr i j) := by
  obtain ⟨hi, hj, hk⟩ := pixelCoordinates_range h
  obtain ⟨g1, g2⟩ := pixelCoordinates_some hi hj hk
  obtain ⟨d1, d2⟩ := superpixelize_at im ierr hi hj hk
  have hs : 0 < s := by
    rcases Nat.eq_zero_or_pos s with rfl | h
    · simp at hi
    · exact h
  have hkd : k / s < s := Nat.div_lt_of_lt_mul (by rwa [pow_two] at hk)
  have l1 := coord_lt hx hi hkd
  have l2 := coord_lt hy hj (Nat.mod_lt k hs)
  refine ⟨_, _, l1, l2, ?_, ?_, d1, d2⟩
  · rw [g1] at h
    rw [← Option.some.inj h, toInt16, if_pos (by omega)]
  · rw [g2, toInt16, if_pos (by omega)]

/-- **C38 (sizes).** The array has `nx/s` by `ny/s` super-pixels of `2 s^2` entries. -/
theorem C38_sizes {α : Type} (s nx ny : Nat) (im ierr : Nat → Nat → α) :
    (superpixelize s nx ny im ierr).length = nx / s ∧
    (∀ r ∈ superpixelize s nx ny im ierr, r.length = ny / s ∧ ∀ p ∈ r, p.length = 2 * s ^ 2) := by
  refine ⟨by simp [superpixelize], ?_⟩
  intro r hr
  obtain ⟨ii, -, rfl⟩ := List.mem_map.1 hr
  refine ⟨by simp, ?_⟩
  intro p hp
  obtain ⟨jj, -, rfl⟩ := List.mem_map.1 hp
  rw [List.length_append, block_length, block_length]
  omega

/-- **C38 (corners).** The four corners of a super-pixel are pixels of it, and every pixel of it
lies within them. -/
theorem C38_corners {s nx ny ii jj : Nat} (hx : s ∣ nx) (hy : s ∣ ny) (hnx : nx ≤ 32768)
    (hny : ny ≤ 32768) (hi : ii < nx / s) (hj : jj < ny / s) :
    ∃ x0 x1 y0 y1, superpixelCorners s nx ny ii jj
        = [some (x0, y0), some (x1, y0), some (x1, y1), some (x0, y1)] ∧
      (∀ c ∈ [(x0, y0), (x1, y0), (x1, y1), (x0, y1)], ∃ k,
        at3 (pixelCoordinates s nx ny).1 ii jj k = some (some c.1) ∧
        at3 (pixelCoordinates s nx ny).2 ii jj k = some (some c.2)) ∧
      ∀ k x y, at3 (pixelCoordinates s nx ny).1 ii jj k = some (some x) →
        at3 (pixelCoordinates s nx ny).2 ii jj k = some (some y) →
        x0 ≤ x ∧ x ≤ x1 ∧ y0 ≤ y ∧ y ≤ y1 := by
  have hs : 0 < s := by
    rcases Nat.eq_zero_or_pos s with rfl | h
    · simp at hi
    · exact h
  have hk0 : 0 < s ^ 2 := by positivity
  have lx : ∀ a, a < s → ii * s + a < 32768 := fun a ha => by have := coord_lt hx hi ha; omega
  have ly : ∀ a, a < s → jj * s + a < 32768 := fun a ha => by have := coord_lt hy hj ha; omega
  have pix : ∀ a b, a < s → b < s →
      at3 (pixelCoordinates s nx ny).1 ii jj (a * s + b) = some (some (ii * s + a)) ∧
      at3 (pixelCoordinates s nx ny).2 ii jj (a * s + b) = some (some (jj * s + b)) := by
    intro a b ha hb
    have hk : a * s + b < s ^ 2 := by
      have : a * s + s ≤ s * s := by rw [← Nat.succ_mul]; exact Nat.mul_le_mul_right _ ha
      rw [pow_two]; omega
    have hd : (a * s + b) / s = a := by
      rw [Nat.add_comm, Nat.mul_comm, Nat.add_mul_div_left _ _ hs, Nat.div_eq_of_lt hb]; omega
    have hm : (a * s + b) % s = b := mul_add_mod_lt hb
    obtain ⟨g1, g2⟩ := pixelCoordinates_some hi hj hk
    rw [g1, g2, hd, hm, toInt16, toInt16, if_pos (lx a ha), if_pos (ly b hb)]
    exact ⟨rfl, rfl⟩
  refine ⟨ii * s, ii * s + (s - 1), jj * s, jj * s + (s - 1), ?_, ?_, ?_⟩
  · obtain ⟨p1, p2⟩ := pix 0 0 hs hs
    simp only [Nat.zero_mul, Nat.add_zero] at p1 p2
    have f1 : ((pixelCoordinates s nx ny).1[ii]?.bind fun r => (r[jj]?).bind fun p => (p[0]?).bind id)
        = some (ii * s) := by
      have : at3 (pixelCoordinates s nx ny).1 ii jj 0 = some (some (ii * s)) := p1
      unfold at3 at this
      obtain ⟨r, e1, this⟩ := Option.bind_eq_some_iff.1 this
      obtain ⟨p, e2, e3⟩ := Option.bind_eq_some_iff.1 this
      simp [e1, e2, e3]
    have f2 : ((pixelCoordinates s nx ny).2[ii]?.bind fun r => (r[jj]?).bind fun p => (p[0]?).bind id)
        = some (jj * s) := by
      have : at3 (pixelCoordinates s nx ny).2 ii jj 0 = some (some (jj * s)) := p2
      unfold at3 at this
      obtain ⟨r, e1, this⟩ := Option.bind_eq_some_iff.1 this
      obtain ⟨p, e2, e3⟩ := Option.bind_eq_some_iff.1 this
      simp [e1, e2, e3]
    unfold superpixelCorners
    simp only [f1, f2, cornerOffsets]
    simp
  · intro c hc
    simp only [List.mem_cons, List.not_mem_nil, or_false] at hc
    rcases hc with rfl | rfl | rfl | rfl
    · exact ⟨_, by simpa using pix 0 0 hs hs⟩
    · exact ⟨_, by simpa using pix (s - 1) 0 (by omega) hs⟩
    · exact ⟨_, by simpa using pix (s - 1) (s - 1) (by omega) (by omega)⟩
    · exact ⟨_, by simpa using pix 0 (s - 1) hs (by omega)⟩
  · intro k x y h1 h2
    obtain ⟨-, -, hk⟩ := pixelCoordinates_range h1
    obtain ⟨g1, g2⟩ := pixelCoordinates_some hi hj hk
    have hkd : k / s < s := Nat.div_lt_of_lt_mul (by rwa [pow_two] at hk)
    have hkm : k % s < s := Nat.mod_lt _ hs
    rw [g1, toInt16, if_pos (lx _ hkd)] at h1
    rw [g2, toInt16, if_pos (ly _ hkm)] at h2
    have e1 : ii * s + k / s = x := by simpa using h1
    have e2 : jj * s + k % s = y := by simpa using h2
    generalize k / s = a at *
    generalize k % s = b at *
    omega

/-- Beyond 32768 pixels on a side a slot's stored coordinate is not the pixel's (the coordinates
are kept as 16-bit integers). -/
theorem C38_refuted_large {s nx ny : Nat} (hs : 0 < s) (hx : s ∣ nx) (hnx : 32768 < nx)
    (hny : s ≤ ny) :
    ∃ ii jj k, at3 (pixelCoordinates s nx ny).1 ii jj k = some none := by
  have hm : 32768 % s < s := Nat.mod_lt _ hs
  have hi : 32768 / s < nx / s := Nat.div_lt_div_of_lt_of_dvd hx hnx
  have hk : (32768 % s) * s < s ^ 2 := by
    rw [pow_two]; exact (Nat.mul_lt_mul_right hs).2 hm
  refine ⟨32768 / s, 0, (32768 % s) * s, ?_⟩
  obtain ⟨g1, -⟩ := pixelCoordinates_some (ny := ny) hi (Nat.div_pos hny hs) hk
  rw [g1, Nat.mul_div_cancel _ hs]
  have : 32768 / s * s + 32768 % s = 32768 := by rw [Nat.mul_comm]; exact Nat.div_add_mod _ s
  rw [this]; rfl

/-- Non-vacuity: a 4 by 6 image in super-pixels of side 2. -/
example : superpixelize 2 4 6 (fun i j => 10 * i + j) (fun i j => 100 + 10 * i + j)
    = [[[0, 1, 10, 11, 100, 101, 110, 111], [2, 3, 12, 13, 102, 103, 112, 113],
        [4, 5, 14, 15, 104, 105, 114, 115]],
       [[20, 21, 30, 31, 120, 121, 130, 131], [22, 23, 32, 33, 122, 123, 132, 133],
        [24, 25, 34, 35, 124, 125, 134, 135]]] := by decide

/-! ## C67 -/

section
variable {K : Type} [Field K] [LinearOrder K] [IsStrictOrderedRing K]

lemma argminFrom_spec (i : Nat) (xs : List K) :
    (argminFrom i xs = none ↔ xs = []) ∧
    ∀ j y, argminFrom i xs = some (j, y) →
      i ≤ j ∧ xs[j - i]? = some y ∧ (∀ (n : Nat) (z : K), xs[n]? = some z → y ≤ z) ∧
      ∀ (n : Nat) (z : K), n < j - i → xs[n]? = some z → y < z := by
  induction xs generalizing i with
  | nil => simp [argminFrom]
  | cons x xs ih =>
    obtain ⟨ih1, ih2⟩ := ih (i + 1)
    unfold argminFrom
    cases h : argminFrom (i + 1) xs with
    | none =>
      have hx := ih1.1 h
      subst hx
      refine ⟨by simp, ?_⟩
      intro j y hj
      simp only [Option.some.injEq, Prod.mk.injEq] at hj
      obtain ⟨rfl, rfl⟩ := hj
      refine ⟨le_rfl, by simp, ?_, ?_⟩
      · intro n z hz
        cases n with
        | zero => simp at hz; exact hz.le
        | succ n => simp at hz
      · intro n z hn; omega
    | some p =>
      obtain ⟨j', y'⟩ := p
      obtain ⟨a1, a2, a3, a4⟩ := ih2 j' y' h
      simp only
      by_cases hlt : y' < x
      · rw [if_pos hlt]
        refine ⟨by simp, ?_⟩
        intro j y hj
        simp only [Option.some.injEq, Prod.mk.injEq] at hj
        obtain ⟨rfl, rfl⟩ := hj
        have hji : j' - i = (j' - (i + 1)) + 1 := by omega
        refine ⟨by omega, by rw [hji]; simpa using a2, ?_, ?_⟩
        · intro n z hz
          cases n with
          | zero => simp at hz; subst hz; exact hlt.le
          | succ n => exact a3 n z (by simpa using hz)
        · intro n z hn hz
          cases n with
          | zero => simp at hz; subst hz; exact hlt
          | succ n => exact a4 n z (by omega) (by simpa using hz)
      · rw [if_neg hlt]
        refine ⟨by simp, ?_⟩
        intro j y hj
        simp only [Option.some.injEq, Prod.mk.injEq] at hj
        obtain ⟨rfl, rfl⟩ := hj
        refine ⟨le_rfl, by simp, ?_, ?_⟩
        · intro n z hz
          cases n with
          | zero => simp at hz; exact hz.le
          | succ n => exact (not_lt.1 hlt).trans (a3 n z (by simpa using hz))
        · intro n z hn; omega

/-- Squared distance. -/
def dist2 (p q : K × K) : K := (p.1 - q.1) ^ 2 + (p.2 - q.2) ^ 2

/-- **C67.** With a table of tabulated locations and a parameter row for each, the lookup returns
the parameters of a location no other location is nearer than, the first one in a tie. -/
theorem C67_nearest {P : Type} {xp yp : List K} {params : List P} (hlen : xp.length = yp.length)
    (hpar : params.length = xp.length) (hne : xp ≠ []) (xy : K × K) :
    ∃ (i : Nat) (p : P) (l : K × K), lookup (some [xp, yp]) params (some xy) = .ok p ∧
      params[i]? = some p ∧ (xp.zip yp)[i]? = some l ∧
      (∀ (n : Nat) (m : K × K), (xp.zip yp)[n]? = some m → dist2 xy l ≤ dist2 xy m) ∧
      ∀ (n : Nat) (m : K × K), n < i → (xp.zip yp)[n]? = some m → dist2 xy l < dist2 xy m := by
  obtain ⟨x, y⟩ := xy
  set ds := (xp.zip yp).map fun p => (x - p.1) ^ 2 + (y - p.2) ^ 2 with hds
  obtain ⟨s1, s2⟩ := argminFrom_spec 0 ds
  have hz : (xp.zip yp).length = xp.length := by simp [hlen]
  cases h : argminFrom 0 ds with
  | none =>
    exfalso
    have := s1.1 h
    have h0 : ds.length = 0 := by rw [this]; rfl
    rw [hds, List.length_map, hz] at h0
    exact hne (List.length_eq_zero_iff.1 h0)
  | some q =>
    obtain ⟨i, d⟩ := q
    obtain ⟨-, b2, b3, b4⟩ := s2 i d h
    rw [Nat.sub_zero] at b2 b4
    rw [hds, List.getElem?_map] at b2
    obtain ⟨l, hl, hld⟩ := Option.map_eq_some_iff.1 b2
    have hi : i < params.length := by
      rw [hpar, ← hz]; exact (List.getElem?_eq_some_iff.1 hl).1
    have hpi : params[i]? = some params[i] := List.getElem?_eq_getElem hi
    have hidx : lookupIndex (some [xp, yp]) (some (x, y)) = i := by
      simp only [lookupIndex, hlen, if_true, ← hds, h]
    have key : ∀ (n : Nat) (m : K × K), (xp.zip yp)[n]? = some m → ds[n]? = some (dist2 (x, y) m) := by
      intro n m hm; simp [hds, hm, dist2]
    refine ⟨i, params[i], l, ?_, hpi, hl, ?_, ?_⟩
    · unfold lookup; rw [hidx, hpi]
    · intro n m hm
      have := b3 n _ (key n m hm)
      rw [← hld] at this
      exact this
    · intro n m hn hm
      have := b4 n _ hn (key n m hm)
      rw [← hld] at this
      exact this

/-- **C67 (fallback).** Without a position, or without a two-row location table, entry 0 is
returned; looking a PSF up without an astrometric solution therefore never depends on the source. -/
theorem C67_fallback {P S : Type} (rows : Option (List (List K))) (p : P) (ps : List P) (s : S) :
    lookup rows (p :: ps) none = .ok p ∧
    (∀ xy, (∀ a b : List K, rows ≠ some [a, b]) → lookup rows (p :: ps) xy = .ok p) ∧
    getLocalPsf (K := K) rows (p :: ps) none s = .ok p ∧
    (∀ w, getLocalPsf rows (p :: ps) (some w) s = lookup rows (p :: ps) (some (w s))) := by
  have h1 : lookup rows (p :: ps) none = .ok p := by simp [lookup, lookupIndex]
  refine ⟨h1, ?_, h1, fun w => rfl⟩
  intro xy h
  have : lookupIndex rows xy = 0 := by
    unfold lookupIndex
    split
    · rename_i a b; exact absurd rfl (h _ _)
    · rfl
  simp [lookup, this]

/-- Non-vacuity: three locations. -/
example : (lookup (K := ℚ) (some [[0, 10, 10], [0, 0, 10]]) ["a", "b", "c"] (some (9, 8))).toOption
    = some "c" := by decide +kernel

end

end Forcepho.Storage
