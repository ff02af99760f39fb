import Mathlib.Data.Rat.Floor
import Mathlib.Algebra.Order.Floor.Ring
import Mathlib.Tactic.Linarith
import Mathlib.Tactic.Ring
import Mathlib.Tactic.Push

/-! # C178: stamps cut out of images (forcepho/slow/stamp.py:259-315) -/

set_option autoImplicit false

namespace Forcepho.Slow.Cutout

/-- A floating point number: finite, infinite, or not a number. -/
inductive Val
  | fin (q : ℚ) | inf | nan
  deriving DecidableEq

/-- `1. / err` (stamp.py:299). -/
def recip : Val → Val
  | .fin q => if q = 0 then .inf else .fin (1 / q)
  | .inf => .fin 0
  | .nan => .nan

/-- `np.isfinite` (stamp.py:301). -/
def Val.finite : Val → Bool
  | .fin _ => true
  | _ => false

/-- `astype(int)` (stamp.py:286): towards zero. -/
def trunc (q : ℚ) : ℤ := if 0 ≤ q then ⌊q⌋ else ⌈q⌉

/-- The bound of a slice in an array of `n`: negative ones count from the end, all are clipped. -/
def bound (n : Nat) (i : ℤ) : Nat := if i < 0 then (i + n).toNat else min i.toNat n

/-- `array[a:b]` along one axis. -/
def slice {α : Type} (l : List α) (a b : ℤ) : List α := (l.take (bound l.length b)).drop (bound l.length a)

/-- The stamp as far as it is filled (stamp.py:289-313): pixel values and weights with the first axis first, the shape, the reference pixel and value. -/
structure Stamp where
  values : List (List Val)
  ierr : List (List Val)
  nx : Nat
  ny : Nat
  crpix : ℚ × ℚ
  crval : ℚ × ℚ

/-- The first index along an axis (stamp.py:286). -/
def lo (center size : ℚ) : ℤ := trunc (center - 1 / 2 * size)
/-- The index after the last along an axis (stamp.py:286). -/
def hi (center size : ℚ) : ℤ := trunc (center + 1 / 2 * size)

/-- `image[xinds, yinds]` (stamp.py:287-288, 298-299): the indices along x on the first axis. -/
def sub (im : List (List Val)) (center size : ℚ × ℚ) : List (List Val) :=
  (slice im (lo center.1 size.1) (hi center.1 size.1)).map fun row => slice row (lo center.2 size.2) (hi center.2 size.2)

/-- The stamp for a centre in pixels (stamp.py:284-305). Image and uncertainties have the same shape. -/
def cut (im err : List (List Val)) (center size : ℚ × ℚ) : Stamp :=
  let w := (sub err center size).map fun row => row.map recip
  { values := List.zipWith (List.zipWith fun v e => if e.finite then v else .fin 0) (sub im center size) w
    ierr := w.map fun row => row.map fun e => if e.finite then e else .fin 0
    nx := (sub im center size).length
    ny := (slice (im.headD []) (lo center.2 size.2) (hi center.2 size.2)).length
    crpix := ((⌊1 / 2 * size.1⌋ : ℤ), (⌊1 / 2 * size.2⌋ : ℤ))
    crval := ((⌊1 / 2 * size.1⌋ : ℤ) + (lo center.1 size.1 : ℚ), (⌊1 / 2 * size.2⌋ : ℤ) + (lo center.2 size.2 : ℚ)) }

/-- The kinds of centre. -/
inductive Kind
  | pixels | celestial
  deriving DecidableEq

/-- The exceptions for a position with another number of coordinates than the header has axes (stamp.py:283), for a method that arrays do not have (stamp.py:293) and for a property that cannot be set (stamp.py:103-109). -/
inductive Failure
  | attributeError | valueError
  deriving DecidableEq

/-- What is set on the stamp, in order (stamp.py:297-315). -/
def assigned : List String :=
  ["pixel_values", "ierr", "nx", "ny", "npix", "ypix", "xpix", "crpix", "crval", "scale", "pixcenter_in_full"]

/-- The properties of the class, which cannot be set (stamp.py:103-109). -/
def readOnly : List String := ["npix", "shape"]

/-- The methods of an array which the function calls: `append` (stamp.py:293) is none of them. -/
def arrayMethods : List String := ["astype"]

/-- Setting attributes one by one. -/
def setAll : List String → Except Failure Unit
  | [] => .ok ()
  | a :: r => if readOnly.contains a then .error .attributeError else setAll r

/-- The function (stamp.py:259-315), for a header with `axes` axes of coordinates; a position on the sky is given three coordinates
(stamp.py:280). What it returns is `None`, since there is no return. -/
def extract (axes : Nat) (kind : Kind) (im err : List (List Val)) (center size : ℚ × ℚ) : Except Failure (Option Stamp) :=
  let _ := cut im err center size
  if kind = .celestial ∧ axes ≠ 3 then .error .valueError
  else if kind = .celestial ∧ ¬ arrayMethods.contains "append" then .error .attributeError
  else
    match setAll assigned with
    | .error e => .error e
    | .ok _ => .ok none

/-! ## Proofs -/

theorem trunc_nat {q : ℚ} {a : Nat} (h1 : (a : ℚ) ≤ q) (h2 : q < a + 1) : trunc q = a := by
  unfold trunc
  rw [if_pos (le_trans (by positivity) h1)]
  rw [Int.floor_eq_iff]
  exact ⟨by exact_mod_cast h1, by exact_mod_cast h2⟩

theorem bound_nat {n a : Nat} (h : a ≤ n) : bound n (a : ℤ) = a := by
  unfold bound
  simp [h]

theorem slice_get {α : Type} (l : List α) (a b i : Nat) (ha : a ≤ b) (hb : b ≤ l.length) :
    (slice l a b)[i]? = if i < b - a then l[a + i]? else none := by
  unfold slice
  rw [bound_nat hb, bound_nat (ha.trans hb), List.getElem?_drop, List.getElem?_take]
  split <;> split <;> first | rfl | omega

theorem slice_length {α : Type} (l : List α) (a b : Nat) (_ha : a ≤ b) (hb : b ≤ l.length) : (slice l a b).length = b - a := by
  unfold slice
  rw [bound_nat hb, bound_nat (_ha.trans hb)]
  simp [hb]

/-- The function never gives a stamp: it fails for every image, centre and size, in pixels and on the sky. With the two axes of an image a position on
the sky is not even converted. -/
theorem C178_extract_refuted (axes : Nat) (kind : Kind) (im err : List (List Val)) (center size : ℚ × ℚ) :
    extract axes kind im err center size = .error (if kind = .celestial ∧ axes ≠ 3 then .valueError else .attributeError) := by
  unfold extract
  cases kind
  · have : setAll assigned = .error .attributeError := by decide +kernel
    simp [this]
  · have : ¬ arrayMethods.contains "append" := by decide +kernel
    by_cases h : axes = 3
    · simp only [h, ne_eq, not_true_eq_false, and_false, if_false]
      rw [if_pos ⟨trivial, this⟩]
    · simp only [h, ne_eq, not_false_eq_true, and_self, if_true]

/-- The attributes before the one that fails, which are the pixels, the weights and the shape; it could not be passed over, as all the astrometry comes
after it. -/
theorem C178_assigned : ∃ a b : List String, assigned = a ++ "npix" :: b ∧ a = ["pixel_values", "ierr", "nx", "ny"] ∧ setAll a = .ok () ∧
    setAll b = .ok () ∧ ∀ k ∈ ["xpix", "ypix", "crpix", "crval", "scale"], k ∈ b := by
  refine ⟨["pixel_values", "ierr", "nx", "ny"], ["ypix", "xpix", "crpix", "crval", "scale", "pixcenter_in_full"], rfl, rfl, ?_, ?_, ?_⟩ <;>
    decide +kernel

/-- The pixels set before it fails, for a box inside the image: pixel `(i, j)` is the one of the image on row `a + i` and column `a' + j`, where `a` and
`a'` are the corners of the box about the centre rounded down. A pixel whose uncertainty is zero or no number has value and weight zero; other weights are
the inverse uncertainties. -/
theorem C178_pixels_partial (im err : List (List Val)) (center size : ℚ × ℚ) (a b a' b' : Nat)
    (h1 : (a : ℚ) ≤ center.1 - size.1 / 2 ∧ center.1 - size.1 / 2 < a + 1) (h2 : (b : ℚ) ≤ center.1 + size.1 / 2 ∧ center.1 + size.1 / 2 < b + 1)
    (h3 : (a' : ℚ) ≤ center.2 - size.2 / 2 ∧ center.2 - size.2 / 2 < a' + 1)
    (h4 : (b' : ℚ) ≤ center.2 + size.2 / 2 ∧ center.2 + size.2 / 2 < b' + 1)
    (hab : a ≤ b) (hab' : a' ≤ b') (hr : b ≤ im.length) (hre : b ≤ err.length) (hc : ∀ r ∈ im, b' ≤ r.length) (hce : ∀ r ∈ err, b' ≤ r.length) :
    (cut im err center size).nx = b - a ∧ (im ≠ [] → (cut im err center size).ny = b' - a') ∧
    ∀ i j, i < b - a → j < b' - a' → ∀ v e, im[a + i]?.bind (·[a' + j]?) = some v → err[a + i]?.bind (·[a' + j]?) = some e →
      (cut im err center size).values[i]?.bind (·[j]?) = some (if e = .fin 0 ∨ e = .nan then .fin 0 else v) ∧
      (cut im err center size).ierr[i]?.bind (·[j]?) =
        some (match e with | .fin q => if q = 0 then .fin 0 else .fin (1 / q) | .inf => .fin 0 | .nan => .fin 0) := by
  have e1 : lo center.1 size.1 = a := trunc_nat (by linarith [h1.1]) (by linarith [h1.2])
  have e2 : hi center.1 size.1 = b := trunc_nat (by linarith [h2.1]) (by linarith [h2.2])
  have e3 : lo center.2 size.2 = a' := trunc_nat (by linarith [h3.1]) (by linarith [h3.2])
  have e4 : hi center.2 size.2 = b' := trunc_nat (by linarith [h4.1]) (by linarith [h4.2])
  have hs : ∀ m : List (List Val), sub m center size = (slice m a b).map fun row => slice row (a' : ℤ) (b' : ℤ) := by
    intro m; unfold sub; rw [e1, e2, e3, e4]
  refine ⟨?_, ?_, ?_⟩
  · unfold cut
    simp only [hs, List.length_map]
    exact slice_length im a b hab hr
  · intro hne
    obtain ⟨r, t, rfl⟩ := List.exists_cons_of_ne_nil hne
    unfold cut
    simp only [List.headD_cons, e3, e4]
    exact slice_length r a' b' hab' (hc r (by simp))
  · intro i j hi' hj v e hv he
    obtain ⟨rv, hrv, hv⟩ := Option.bind_eq_some_iff.1 hv
    obtain ⟨re, hre', he⟩ := Option.bind_eq_some_iff.1 he
    have g1 : (sub im center size)[i]? = some (slice rv (a' : ℤ) (b' : ℤ)) := by
      rw [hs, List.getElem?_map, slice_get im a b i hab hr, if_pos hi', hrv]; rfl
    have g2 : (sub err center size)[i]? = some (slice re (a' : ℤ) (b' : ℤ)) := by
      rw [hs, List.getElem?_map, slice_get err a b i hab hre, if_pos hi', hre']; rfl
    have k1 : (slice rv (a' : ℤ) (b' : ℤ))[j]? = some v := by
      rw [slice_get rv a' b' j hab' (hc rv (List.mem_of_getElem? hrv)), if_pos hj, hv]
    have k2 : (slice re (a' : ℤ) (b' : ℤ))[j]? = some e := by
      rw [slice_get re a' b' j hab' (hce re (List.mem_of_getElem? hre')), if_pos hj, he]
    constructor
    · unfold cut
      simp only [List.getElem?_zipWith, List.getElem?_map, g1, g2, Option.map_some, Option.bind_some, k1, k2]
      cases e with
      | fin q => by_cases hq : q = 0 <;> simp [recip, Val.finite, hq]
      | inf => simp [recip, Val.finite]
      | nan => simp [recip, Val.finite]
    · unfold cut
      simp only [List.getElem?_map, g2, Option.map_some, Option.bind_some, k2]
      cases e with
      | fin q => by_cases hq : q = 0 <;> simp [recip, Val.finite, hq]
      | inf => simp [recip, Val.finite]
      | nan => simp [recip, Val.finite]

/-- A box of two by two about (2, 1) in an image of four by three. -/
example : (cut [[.fin 0, .fin 1, .fin 2], [.fin 10, .fin 11, .fin 12], [.fin 20, .nan, .fin 22], [.fin 30, .fin 31, .fin 32]]
    [[.fin 1, .fin 1, .fin 1], [.fin 1, .fin 2, .fin 1], [.fin 1, .nan, .fin 1], [.fin 1, .fin 1, .fin 1]] (2, 1) (2, 2)).values =
    [[.fin 10, .fin 11], [.fin 20, .fin 0]] := by decide +kernel

/-- A box of whole size inside the image has that size. -/
theorem C178_size (center : ℚ) (n : Nat) (h : (n : ℚ) / 2 ≤ center) : hi center n - lo center n = n := by
  unfold hi lo trunc
  have h1 : (0 : ℚ) ≤ center - 1 / 2 * n := by linarith
  have h2 : (0 : ℚ) ≤ center + 1 / 2 * n := by
    have : (0 : ℚ) ≤ n := Nat.cast_nonneg n
    linarith
  rw [if_pos h1, if_pos h2]
  have : center + 1 / 2 * (n : ℚ) = center - 1 / 2 * n + (n : ℤ) := by push_cast; ring
  rw [this, Int.floor_add_intCast]
  ring

/-- The reference pixel of the stamp lies at its reference value on the image, at most two pixels below the centre, and less than one for an even size. -/
theorem C178_reference (im err : List (List Val)) (center size : ℚ × ℚ) (h1 : size.1 / 2 ≤ center.1) (h2 : size.2 / 2 ≤ center.2) :
    (cut im err center size).crval.1 = (cut im err center size).crpix.1 + (⌊center.1 - size.1 / 2⌋ : ℤ) ∧
    (cut im err center size).crval.2 = (cut im err center size).crpix.2 + (⌊center.2 - size.2 / 2⌋ : ℤ) ∧
    (0 ≤ center.1 - (cut im err center size).crval.1 ∧ center.1 - (cut im err center size).crval.1 < 2) ∧
    (0 ≤ center.2 - (cut im err center size).crval.2 ∧ center.2 - (cut im err center size).crval.2 < 2) ∧
    (∀ k : ℤ, size.1 = 2 * k → (cut im err center size).crpix.1 = k ∧ center.1 - (cut im err center size).crval.1 < 1) ∧
    (∀ k : ℤ, size.2 = 2 * k → (cut im err center size).crpix.2 = k ∧ center.2 - (cut im err center size).crval.2 < 1) := by
  have l : ∀ c s : ℚ, s / 2 ≤ c → lo c s = ⌊c - s / 2⌋ := by
    intro c s h
    unfold lo trunc
    have e : c - 1 / 2 * s = c - s / 2 := by ring
    rw [e, if_pos (by linarith)]
  have key : ∀ c s : ℚ, 0 ≤ c - ((⌊1 / 2 * s⌋ : ℤ) + (⌊c - s / 2⌋ : ℤ)) ∧ c - ((⌊1 / 2 * s⌋ : ℤ) + (⌊c - s / 2⌋ : ℤ)) < 2 := by
    intro c s
    have a1 := Int.floor_le (1 / 2 * s)
    have a2 := Int.lt_floor_add_one (1 / 2 * s)
    have a3 := Int.floor_le (c - s / 2)
    have a4 := Int.lt_floor_add_one (c - s / 2)
    constructor <;> linarith
  have key2 : ∀ (c s : ℚ) (k : ℤ), s = 2 * k →
      ((⌊1 / 2 * s⌋ : ℤ) : ℚ) = k ∧ c - ((⌊1 / 2 * s⌋ : ℤ) + (⌊c - s / 2⌋ : ℤ)) < 1 := by
    intro c s k hk
    have e : 1 / 2 * s = k := by rw [hk]; ring
    have a4 := Int.lt_floor_add_one (c - s / 2)
    rw [e, Int.floor_intCast]
    refine ⟨rfl, ?_⟩
    have : s / 2 = k := by rw [hk]; ring
    linarith
  simp only [cut, l _ _ h1, l _ _ h2]
  exact ⟨trivial, trivial, key _ _, key _ _, fun k hk => key2 _ _ k hk, fun k hk => key2 _ _ k hk⟩

/-- The box is transposed: for a centre and size given as (x, y), the first pixel is the one on row x and column y of the image, whose rows are y. In an
image of three rows the pixel asked for, at x = 1 and y = 0, is on row 0 and column 1, and another is taken. -/
theorem C178_transposed_refuted :
    ∃ (im err : List (List Val)) (center size : ℚ × ℚ),
      lo center.1 size.1 = 1 ∧ lo center.2 size.2 = 0 ∧ (∀ r ∈ err, ∀ e ∈ r, e = .fin 1) ∧
      (cut im err center size).values = [[.fin 10]] ∧ im[0]?.bind (·[1]?) = some (.fin 1) := by
  refine ⟨[[.fin 0, .fin 1, .fin 2], [.fin 10, .fin 11, .fin 12], [.fin 20, .fin 21, .fin 22]],
    [[.fin 1, .fin 1, .fin 1], [.fin 1, .fin 1, .fin 1], [.fin 1, .fin 1, .fin 1]], (3 / 2, 1 / 2), (1, 1), ?_, ?_, ?_, ?_, ?_⟩ <;> decide +kernel

/-- A box that crosses the lower edge is not cut off there: its first index is counted from the end, and nothing is left of a box no
larger than the image. -/
theorem C178_edge_refuted (im err : List (List Val)) (center size : ℚ × ℚ) (h1 : center.1 - size.1 / 2 ≤ -1) (h2 : 0 ≤ center.1 + size.1 / 2)
    (hs : size.1 ≤ im.length) :
    (cut im err center size).values = [] ∧ (cut im err center size).nx = 0 := by
  have hlo : lo center.1 size.1 = ⌈center.1 - size.1 / 2⌉ := by
    unfold lo trunc
    have e : center.1 - 1 / 2 * size.1 = center.1 - size.1 / 2 := by ring
    rw [e, if_neg (by linarith)]
  have hhi : hi center.1 size.1 = ⌊center.1 + size.1 / 2⌋ := by
    unfold hi trunc
    have e : center.1 + 1 / 2 * size.1 = center.1 + size.1 / 2 := by ring
    rw [e, if_pos h2]
  have hneg : ⌈center.1 - size.1 / 2⌉ < 0 := by
    have : ⌈center.1 - size.1 / 2⌉ ≤ -1 := Int.ceil_le.2 (by exact_mod_cast h1)
    omega
  have hpos : 0 ≤ ⌊center.1 + size.1 / 2⌋ := Int.floor_nonneg.2 h2
  have hle : ⌊center.1 + size.1 / 2⌋ ≤ ⌈center.1 - size.1 / 2⌉ + im.length := by
    have a1 := Int.floor_le (center.1 + size.1 / 2)
    have a2 := Int.le_ceil (center.1 - size.1 / 2)
    have : ((⌊center.1 + size.1 / 2⌋ : ℤ) : ℚ) ≤ ((⌈center.1 - size.1 / 2⌉ + im.length : ℤ) : ℚ) := by
      push_cast
      linarith
    exact_mod_cast this
  have hsub : sub im center size = [] := by
    unfold sub slice
    rw [hlo, hhi]
    have b1 : bound im.length ⌈center.1 - size.1 / 2⌉ = (⌈center.1 - size.1 / 2⌉ + im.length).toNat := by
      unfold bound; rw [if_pos hneg]
    have b2 : bound im.length ⌊center.1 + size.1 / 2⌋ = min ⌊center.1 + size.1 / 2⌋.toNat im.length := by
      unfold bound; rw [if_neg (by omega)]
    rw [b1, b2, List.drop_eq_nil_of_le]
    · rfl
    · rw [List.length_take]
      omega
  constructor
  · unfold cut
    simp [hsub]
  · unfold cut
    simp [hsub]

end Forcepho.Slow.Cutout
