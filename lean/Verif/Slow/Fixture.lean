import Mathlib.Algebra.Order.Field.Basic
import Mathlib.Data.List.GetD
import Mathlib.Data.List.Sort
import Mathlib.Tactic.FieldSimp
import Mathlib.Tactic.Linarith
import Mathlib.Tactic.LinearCombination
import Mathlib.Tactic.Ring

/-! # C175: the exposures of the reference test
(tests/slow_tests/create_test_data.py writes them, tests/slow_tests/test_simple.py reads them) -/

set_option autoImplicit false

namespace Forcepho.Slow.Fixture

variable {K : Type} [Field K] [LinearOrder K] [IsStrictOrderedRing K]

/-- The exceptions of writing and reading the exposures (create_test_data.py, test_simple.py). -/
inductive FixErr
  | assertion | typeError | attribute | index
  deriving DecidableEq

/-- The part of a stamp that is written and read: the size, the linear map from sky to pixels, its reference points, and the values and
inverse uncertainties, flattened. -/
structure Exposure (K : Type) where
  nx : Nat
  ny : Nat
  a : K
  b : K
  c : K
  d : K
  crpix : K × K
  crval : K × K
  vals : List K
  ierr : List K

/-- The two FITS files. The first axis of FITS is the last of numpy. -/
structure File (K : Type) where
  naxis1 : Nat
  naxis2 : Nat
  a : K
  b : K
  c : K
  d : K
  crpix : K × K
  crval : K × K
  sci : List K
  unc : List K

/-- `write_exposures` for one exposure (create_test_data.py:142-155), if the items of the header can be listed: see `itemsOf`. The map is
written as pixel scale and angle; both sides make the same matrix of them (create_test_data.py:92-93, test_simple.py:136-137). -/
def write (e : Exposure K) : File K :=
  { naxis1 := e.ny, naxis2 := e.nx, a := e.a, b := e.b, c := e.c, d := e.d, crpix := e.crpix, crval := e.crval
    sci := e.vals, unc := e.ierr.map (1 / ·) }

/-- A pixel in memory: coordinates, value, inverse uncertainty. -/
structure Pix (K : Type) where
  x : Nat
  y : Nat
  val : K
  ierr : K

/-- `ypix, xpix = np.meshgrid(np.arange(ny), np.arange(nx))`, flattened (create_test_data.py:104, test_simple.py:144). -/
def coords (nx ny : Nat) : List (Nat × Nat) := (List.range (nx * ny)).map fun k => (k / ny, k % ny)

/-- `pixelcoords_to_skycoords` (test_simple.py:184-187). -/
def toSky (f : File K) (x y : K) : K × K :=
  let det := f.a * f.d - f.b * f.c
  ((f.d * (x - f.crpix.1) - f.b * (y - f.crpix.2)) / det + f.crval.1, (-f.c * (x - f.crpix.1) + f.a * (y - f.crpix.2)) / det + f.crval.2)

/-- Strictly within the limits (test_simple.py:151-152). -/
def inPatch (f : File K) (ra dec : K × K) (x y : K) : Bool :=
  let s := toSky f x y
  decide (ra.1 < s.1) && decide (s.1 < ra.2) && (decide (dec.1 < s.2) && decide (s.2 < dec.2))

/-- `read_exposure` (test_simple.py:106-169): the size and the pixels of the stamp. -/
def read (f : File K) (ra dec : K × K) (mask : Bool) : Except FixErr (Nat × Nat × List (Pix K)) :=
  let nx := f.naxis1
  let ny := f.naxis2
  let pix := List.zipWith (fun p v => (⟨p.1, p.2, v.1, 1 / v.2⟩ : Pix K)) (coords nx ny) (f.sci.zip f.unc)
  let kept := pix.filter fun p => inPatch f ra dec p.x p.y
  if kept = [] then .error .assertion
  else if mask then .ok (kept.length, 1, kept)
  else .ok (nx, ny, pix)

/-- `s` lies at the sky position `p` where the map takes `p - crval` to the pixel less the reference pixel. -/
def At (e : Exposure K) (x y : Nat) (p : K × K) : Prop :=
  e.a * (p.1 - e.crval.1) + e.b * (p.2 - e.crval.2) = x - e.crpix.1 ∧
  e.c * (p.1 - e.crval.1) + e.d * (p.2 - e.crval.2) = y - e.crpix.2

lemma toSky_at (e : Exposure K) (hdet : e.a * e.d - e.b * e.c ≠ 0) (x y : Nat) (p : K × K) :
    At e x y p ↔ toSky (write e) x y = p := by
  obtain ⟨p1, p2⟩ := p
  simp only [At, toSky, write, Prod.mk.injEq]
  constructor
  · rintro ⟨h1, h2⟩
    rw [← h1, ← h2]
    constructor
    · rw [← eq_sub_iff_add_eq, div_eq_iff hdet]; ring
    · rw [← eq_sub_iff_add_eq, div_eq_iff hdet]; ring
  · rintro ⟨h1, h2⟩
    rw [← eq_sub_iff_add_eq, div_eq_iff hdet] at h1 h2
    constructor
    · apply mul_left_cancel₀ hdet
      linear_combination -e.a * h1 - e.b * h2
    · apply mul_left_cancel₀ hdet
      linear_combination -e.c * h1 - e.d * h2

/-- C175, square exposures. An exposure with as many rows as columns is read as it was made: the stamp has exactly the pixels that lie on the sky
strictly within the limits, each with its value and uncertainty, in order. -/
theorem C175_square_partial (e : Exposure K) (n : Nat) (hn : e.nx = n) (hn' : e.ny = n) (hdet : e.a * e.d - e.b * e.c ≠ 0)
    (hv : e.vals.length = n * n) (hi : e.ierr.length = n * n) (ra dec : K × K) (r : Nat × Nat × List (Pix K))
    (h : read (write e) ra dec true = .ok r) :
    r.1 = r.2.2.length ∧ r.2.1 = 1 ∧ r.2.2 ≠ [] ∧ r.2.2.Pairwise (fun p q => p.x * n + p.y < q.x * n + q.y) ∧
    ∀ x y v w, (⟨x, y, v, w⟩ : Pix K) ∈ r.2.2 ↔
      x < n ∧ y < n ∧ e.vals[x * n + y]? = some v ∧ e.ierr[x * n + y]? = some w ∧
      ∃ p, At e x y p ∧ ra.1 < p.1 ∧ p.1 < ra.2 ∧ dec.1 < p.2 ∧ p.2 < dec.2 := by
  unfold read at h
  simp only [write, hn, hn', if_true] at h
  split at h
  · simp at h
  rename_i hne
  injection h with h
  subst h
  have hpix : ∀ k p, (List.zipWith (fun p v => (⟨p.1, p.2, v.1, 1 / v.2⟩ : Pix K)) (coords n n)
      (e.vals.zip (e.ierr.map (1 / ·))))[k]? = some p ↔
      k < n * n ∧ e.vals[k]? = some p.val ∧ e.ierr[k]? = some p.ierr ∧ p.x = k / n ∧ p.y = k % n := by
    intro k p
    by_cases hk : k < n * n
    · have h1 : (coords n n)[k]? = some (k / n, k % n) := by
        simp [coords, hk]
      have h2 : e.vals[k]? = some (e.vals[k]'(by omega)) := List.getElem?_eq_getElem _
      have h3 : e.ierr[k]? = some (e.ierr[k]'(by omega)) := List.getElem?_eq_getElem _
      obtain ⟨px, py, pv, pw⟩ := p
      rw [List.getElem?_zipWith, h1, List.zip, List.getElem?_zipWith, List.getElem?_map, h2, h3]
      simp only [Option.map_some, Option.some.injEq, Pix.mk.injEq, one_div_one_div, hk, true_and]
      constructor
      · rintro ⟨rfl, rfl, rfl, rfl⟩; exact ⟨rfl, rfl, rfl, rfl⟩
      · rintro ⟨rfl, rfl, rfl, rfl⟩; exact ⟨rfl, rfl, rfl, rfl⟩
    · constructor
      · intro h
        obtain ⟨hlt, _⟩ := List.getElem?_eq_some_iff.1 h
        rw [List.length_zipWith] at hlt
        have : (coords n n).length = n * n := by simp [coords]
        omega
      · rintro ⟨hlt, _⟩
        exact absurd hlt hk
  refine ⟨rfl, rfl, hne, ?_, ?_⟩
  · apply List.Pairwise.filter
    rw [List.pairwise_iff_getElem]
    intro i j hi hj hij
    obtain ⟨_, _, _, a1, a2⟩ := (hpix i _).1 (List.getElem?_eq_getElem hi)
    obtain ⟨_, _, _, b1, b2⟩ := (hpix j _).1 (List.getElem?_eq_getElem hj)
    rw [a1, a2, b1, b2, Nat.div_add_mod', Nat.div_add_mod']
    exact hij
  · intro x y v w
    rw [List.mem_filter]
    have hin : ∀ p : K × K, At e x y p → (inPatch (write e) ra dec x y = true ↔ ra.1 < p.1 ∧ p.1 < ra.2 ∧ dec.1 < p.2 ∧ p.2 < dec.2) := by
      intro p hp
      have := (toSky_at e hdet x y p).1 hp
      simp only [inPatch, this, Bool.and_eq_true, decide_eq_true_eq, and_assoc]
    have hw : inPatch (write e) ra dec x y = inPatch
        (⟨n, n, e.a, e.b, e.c, e.d, e.crpix, e.crval, e.vals, e.ierr.map (1 / ·)⟩ : File K) ra dec x y := rfl
    simp only
    rw [← hw]
    have hat : At e x y (toSky (write e) x y) := (toSky_at e hdet x y _).2 rfl
    constructor
    · rintro ⟨hm, hp⟩
      obtain ⟨k, hk⟩ := List.getElem?_of_mem hm
      obtain ⟨hlt, k1, k2, k3, k4⟩ := (hpix k _).1 hk
      simp only at k1 k2 k3 k4
      have hn0 : 0 < n := by
        rcases Nat.eq_zero_or_pos n with h0 | h0
        · subst h0; simp at hlt
        · exact h0
      have e1 : x * n + y = k := by rw [k3, k4, Nat.div_add_mod']
      refine ⟨?_, ?_, by rw [e1, k1], by rw [e1, k2], _, hat, (hin _ hat).1 hp⟩
      · rw [k3]; exact Nat.div_lt_of_lt_mul hlt
      · rw [k4]; exact Nat.mod_lt _ hn0
    · rintro ⟨hx, hy, h1, h2, p, hp, hr⟩
      refine ⟨?_, (hin p hp).2 hr⟩
      have hlt : x * n + y < n * n := by
        calc x * n + y < x * n + n := by omega
          _ = (x + 1) * n := by ring
          _ ≤ n * n := Nat.mul_le_mul_right n hx
      apply List.mem_of_getElem? (i := x * n + y)
      rw [hpix]
      refine ⟨hlt, h1, h2, ?_, ?_⟩
      · show x = (x * n + y) / n
        rw [Nat.add_comm, Nat.add_mul_div_right _ _ (by omega), Nat.div_eq_of_lt hy, Nat.zero_add]
      · show y = (x * n + y) % n
        rw [Nat.add_comm, Nat.add_mul_mod_self_right, Nat.mod_eq_of_lt hy]

/-- An exposure of two by two pixels. -/
def sample : Exposure ℚ := ⟨2, 2, 2, 0, 0, 2, (1, 1), (0, 0), [1, 2, 3, 4], [5, 6, 7, 8]⟩

/-- The hypotheses are met, the reading succeeds and some pixels are left out. -/
example : sample.a * sample.d - sample.b * sample.c ≠ 0 ∧
    ((read (write sample) (-1, 1 / 4) (-1, 1 / 4) true).toOption.map fun r => r.2.2.map fun p => (p.x, p.y, p.val, p.ierr)) =
      some [(0, 0, 1, 5), (0, 1, 2, 6), (1, 0, 3, 7), (1, 1, 4, 8)] ∧
    ((read (write sample) (-1, 1 / 4) (-1, -1 / 4) true).toOption.map fun r => r.2.2.map fun p => (p.x, p.y, p.val, p.ierr)) =
      some [(0, 0, 1, 5), (1, 0, 3, 7)] := by
  refine ⟨by norm_num [sample], by decide +kernel, by decide +kernel⟩

/-- C175, success. The reading fails exactly if no pixel lies within the limits. -/
theorem C175_fails (f : File K) (ra dec : K × K) (mask : Bool) :
    read f ra dec mask = .error .assertion ↔
      ∀ k < f.naxis1 * f.naxis2, k < f.sci.length → k < f.unc.length →
        ¬ (ra.1 < (toSky f (k / f.naxis2 : Nat) (k % f.naxis2 : Nat)).1 ∧ (toSky f (k / f.naxis2 : Nat) (k % f.naxis2 : Nat)).1 < ra.2 ∧
          dec.1 < (toSky f (k / f.naxis2 : Nat) (k % f.naxis2 : Nat)).2 ∧ (toSky f (k / f.naxis2 : Nat) (k % f.naxis2 : Nat)).2 < dec.2) := by
  unfold read
  simp only
  have hiff : ∀ A B : Except FixErr (Nat × Nat × List (Pix K)), (∃ a, A = .ok a) → (∃ b, B = .ok b) → ∀ (P : Prop) [Decidable P],
      ((if P then (.error .assertion : Except FixErr (Nat × Nat × List (Pix K))) else if mask = true then A else B) = .error .assertion ↔ P) := by
    rintro A B ⟨a, rfl⟩ ⟨b, rfl⟩ P _
    by_cases hP : P
    · simp [hP]
    · cases mask <;> simp [hP]
  classical
  rw [show (∀ k < f.naxis1 * f.naxis2, k < f.sci.length → k < f.unc.length →
        ¬ (ra.1 < (toSky f (k / f.naxis2 : Nat) (k % f.naxis2 : Nat)).1 ∧ (toSky f (k / f.naxis2 : Nat) (k % f.naxis2 : Nat)).1 < ra.2 ∧
          dec.1 < (toSky f (k / f.naxis2 : Nat) (k % f.naxis2 : Nat)).2 ∧ (toSky f (k / f.naxis2 : Nat) (k % f.naxis2 : Nat)).2 < dec.2)) ↔
      ((List.zipWith (fun p v => (⟨p.1, p.2, v.1, 1 / v.2⟩ : Pix K)) (coords f.naxis1 f.naxis2) (f.sci.zip f.unc)).filter
        fun p => inPatch f ra dec p.x p.y) = [] from ?_]
  · exact hiff _ _ ⟨_, rfl⟩ ⟨_, rfl⟩ _
  · rw [List.filter_eq_nil_iff]
    constructor
    · intro h p hp
      obtain ⟨k, hk, rfl⟩ := List.getElem_of_mem hp
      have hlen := hk
      rw [List.length_zipWith, List.length_zip] at hlen
      have hc : (coords f.naxis1 f.naxis2).length = f.naxis1 * f.naxis2 := by simp [coords]
      have := h k (by omega) (by omega) (by omega)
      simp only [inPatch, Bool.and_eq_true, decide_eq_true_eq, and_assoc, List.getElem_zipWith, coords, List.getElem_map, List.getElem_range]
      exact this
    · intro h k h1 h2 h3
      have hc : (coords f.naxis1 f.naxis2).length = f.naxis1 * f.naxis2 := by simp [coords]
      have hk : k < (List.zipWith (fun p v => (⟨p.1, p.2, v.1, 1 / v.2⟩ : Pix K)) (coords f.naxis1 f.naxis2) (f.sci.zip f.unc)).length := by
        rw [List.length_zipWith, List.length_zip]
        omega
      have := h _ (List.getElem_mem hk)
      simp only [inPatch, Bool.and_eq_true, decide_eq_true_eq, and_assoc, List.getElem_zipWith, coords, List.getElem_map, List.getElem_range]
        at this
      exact this

/-- C175, refuted (other sizes). Whenever the numbers of rows and columns differ, some value is read into another pixel than it was made
for. -/
theorem C175_shape_refuted (e : Exposure K) (hx : 0 < e.nx) (hy : 0 < e.ny) (hne : e.nx ≠ e.ny) (hv : e.vals.length = e.nx * e.ny)
    (hi : e.ierr.length = e.nx * e.ny) (ra dec : K × K) (r : Nat × Nat × List (Pix K)) (h : read (write e) ra dec false = .ok r) :
    ∃ (x y : Nat) (p : Pix K), x < e.nx ∧ y < e.ny ∧ r.2.2[x * e.ny + y]? = some p ∧ e.vals[x * e.ny + y]? = some p.val ∧ (p.x, p.y) ≠ (x, y) := by
  unfold read at h
  simp only [write] at h
  rcases ite_eq_iff.1 h with ⟨_, h⟩ | ⟨_, h⟩
  · simp at h
  simp only [Bool.false_eq_true, if_false] at h
  injection h with h
  subst h
  have hpix : ∀ k < e.nx * e.ny, ∃ p : Pix K, (List.zipWith (fun p v => (⟨p.1, p.2, v.1, 1 / v.2⟩ : Pix K)) (coords e.ny e.nx)
      (e.vals.zip (e.ierr.map (1 / ·))))[k]? = some p ∧ e.vals[k]? = some p.val ∧ p.x = k / e.nx ∧ p.y = k % e.nx := by
    intro k hk
    have hk' : k < e.ny * e.nx := by rwa [Nat.mul_comm]
    have h1 : (coords e.ny e.nx)[k]? = some (k / e.nx, k % e.nx) := by simp [coords, hk']
    have h2 : e.vals[k]? = some (e.vals[k]'(by omega)) := List.getElem?_eq_getElem _
    have h3 : e.ierr[k]? = some (e.ierr[k]'(by omega)) := List.getElem?_eq_getElem _
    refine ⟨⟨k / e.nx, k % e.nx, e.vals[k]'(by omega), 1 / (1 / e.ierr[k]'(by omega))⟩, ?_, h2, rfl, rfl⟩
    rw [List.getElem?_zipWith, h1, List.zip, List.getElem?_zipWith, List.getElem?_map, h2, h3]
    rfl
  rcases lt_or_gt_of_ne hne with hlt | hlt
  · have hk : e.nx < e.nx * e.ny := by
      calc e.nx = e.nx * 1 := (Nat.mul_one _).symm
        _ < e.nx * e.ny := Nat.mul_lt_mul_of_pos_left (by omega) hx
    obtain ⟨p, h1, h2, h3, h4⟩ := hpix e.nx hk
    refine ⟨0, e.nx, p, hx, hlt, by simpa using h1, by simpa using h2, ?_⟩
    rw [h3, h4, Nat.div_self hx]
    intro hh
    injection hh with hh
    omega
  · have hk : e.ny < e.nx * e.ny := by
      calc e.ny = 1 * e.ny := (Nat.one_mul _).symm
        _ < e.nx * e.ny := Nat.mul_lt_mul_of_pos_right (by omega) hy
    obtain ⟨p, h1, h2, h3, h4⟩ := hpix e.ny hk
    refine ⟨1, 0, p, by omega, hy, by simpa using h1, by simpa using h2, ?_⟩
    rw [h3, h4, Nat.div_eq_of_lt hlt]
    intro hh
    injection hh with hh
    omega

/-! ## making the data -/

/-- An argument of `make_exposures`: a number, names of bands, or a size in arcsec. -/
inductive Arg
  | number (n : Nat) | names (l : List String) | pair (x y : ℚ)

/-- The parameters of `make_exposures` in order (create_test_data.py:64-65). -/
def exposuresParams : List String := ["scene", "bands", "NEXPOSURE", "EXPOSURE_SIZE"]

/-- The value of a parameter, from the positional arguments or the default. -/
def bindArg (params : List String) (args : List Arg) (name : String) (default : Arg) : Arg :=
  match (params.zip args).lookup name with
  | some v => v
  | none => default

/-- What `make_exposure` is called with (create_test_data.py:78-79); the scene is left out. Numbers are
exact, and that the number of pixels is cut to a whole one (create_test_data.py:90) is not modelled. -/
structure Call where
  band : String
  scale : ℚ
  crval : ℚ × ℚ
  pa : ℚ
  npix : ℚ × ℚ
  deriving DecidableEq

/-- The pixel scales, one for each of the `NFILTER` bands (create_test_data.py:67-68). -/
def pixscale : List ℚ := (List.range 6).map fun i => if i < 6 / 2 then 3 / 100 else 6 / 100

/-- The call for exposure `j` of a band with a scale (create_test_data.py:72-79). -/
def callOf (size : ℚ × ℚ) (scale : ℚ) (band : String) (j : Nat) : Call :=
  let offset := ((j * 3 : Nat) : ℚ) * scale
  { band := band, scale := scale, crval := (size.1 / 2 + offset, size.2 / 2 + offset), pa := 30 * ((j % 2 : Nat) : ℚ)
    npix := (size.1 / scale, size.2 / scale) }

/-- The loop over bands from the band with number `i` on (create_test_data.py:69-80). A scale is looked up only if there are exposures. -/
def bandLoop (size : ℚ × ℚ) (n : Nat) : Nat → List String → Except FixErr (List Call)
  | _, [] => .ok []
  | i, b :: bs =>
    match (if n = 0 then some 0 else pixscale[i]?) with
    | none => .error .index
    | some scale =>
      match bandLoop size n (i + 1) bs with
      | .error e => .error e
      | .ok rest => .ok ((List.range n).map (callOf size scale b) ++ rest)

/-- The calls of the two loops. A number as the size is that size along both axes (create_test_data.py:73, 76, 90). Arguments of other kinds are errors of type here; python raises some of them only if a loop is entered. -/
def exposures (bands nexp size : Arg) : Except FixErr (List Call) :=
  match bands, nexp, size with
  | .names l, .number n, .pair x y => bandLoop (x, y) n 0 l
  | .names l, .number n, .number w => bandLoop (w, w) n 0 l
  | _, _, _ => .error .typeError

/-- `make_exposures` with positional arguments, with the defaults of create_test_data.py:11-17, 64-65. -/
def makeExposures (args : List Arg) : Except FixErr (List Call) :=
  exposures (bindArg exposuresParams args "bands" (.names ["A", "B", "C", "D", "F", "G"]))
    (bindArg exposuresParams args "NEXPOSURE" (.number 4)) (bindArg exposuresParams args "EXPOSURE_SIZE" (.pair 9 9))

/-- `exp.hdr.iteritems()` (create_test_data.py:147, 152) of a dictionary of python 2 or 3. -/
def itemsOf {A : Type} (version : Nat) (d : List A) : Except FixErr (List A) := if version < 3 then .ok d else .error .attribute

theorem bandLoop_ok (size : ℚ × ℚ) (n : Nat) (bs : List String) (i : Nat) (h : n = 0 ∨ i + bs.length ≤ 6) :
    ∃ l, bandLoop size n i bs = .ok l ∧ l.length = bs.length * n ∧
      ∀ k < bs.length, ∀ j < n, l[k * n + j]? = (bs[k]?).map fun b => callOf size (if i + k < 3 then 3 / 100 else 6 / 100) b j := by
  induction bs generalizing i with
  | nil => exact ⟨[], rfl, by simp, by simp⟩
  | cons b bs ih =>
    obtain ⟨l, hl, hlen, hget⟩ := ih (i + 1) (by simp only [List.length_cons] at h; omega)
    rcases Nat.eq_zero_or_pos n with rfl | hn
    · refine ⟨l, ?_, by simpa using hlen, by simp⟩
      simp [bandLoop, hl]
    · have hi : i < 6 := by simp only [List.length_cons] at h; omega
      have hp : pixscale[i]? = some (if i < 3 then 3 / 100 else 6 / 100) := by
        simp [pixscale, hi]
      refine ⟨(List.range n).map (callOf size (if i < 3 then 3 / 100 else 6 / 100) b) ++ l, ?_, ?_, ?_⟩
      · simp only [bandLoop, if_neg hn.ne', hp, hl]
      · rw [List.length_append, hlen]; simp; ring
      · intro k hk j hj
        cases k with
        | zero =>
          rw [List.getElem?_append_left (by simpa using hj)]
          simp [hj]
        | succ k =>
          have e : (k + 1) * n + j = n + (k * n + j) := by ring
          rw [e, List.getElem?_append_right (by simp)]
          simp only [List.length_map, List.length_range, Nat.add_sub_cancel_left, List.getElem?_cons_succ]
          rw [hget k (by simpa using hk) j hj, show i + 1 + k = i + (k + 1) by omega]

theorem bandLoop_index (size : ℚ × ℚ) (n : Nat) (hn : 0 < n) (bs : List String) (i : Nat) (hi : i ≤ 6) (h : 6 < i + bs.length) :
    bandLoop size n i bs = .error .index := by
  induction bs generalizing i with
  | nil => simp at h; omega
  | cons b bs ih =>
    rcases Nat.lt_or_ge i 6 with h6 | h6
    · have hp : pixscale[i]? = some (if i < 3 then 3 / 100 else 6 / 100) := by simp [pixscale, h6]
      simp only [bandLoop, if_neg hn.ne', hp, ih (i + 1) (by omega) (by simp only [List.length_cons] at h; omega)]
    · have hp : pixscale[i]? = none := by simp [pixscale]; omega
      simp only [bandLoop, if_neg hn.ne', hp]

/-- C175, exposures. With at most six bands, or no exposures, there are `m` exposures in each, in order. Exposure `j` of band `k` has pixels of 0.03 arcsec in the
first three bands and 0.06 in the others, covers the size asked for, is shifted by `3 j` of its pixels along both axes, and every second one is
turned by 30 degrees. -/
theorem C175_exposures (scene : Arg) (bands : List String) (m : Nat) (x y : ℚ) (h : m = 0 ∨ bands.length ≤ 6) :
    ∃ l, makeExposures [scene, .names bands, .number m, .pair x y] = .ok l ∧ l.length = bands.length * m ∧
      ∀ k b, bands[k]? = some b → ∀ j < m, ∃ c, l[k * m + j]? = some c ∧ c.band = b ∧
        (k < 3 → c.scale * 100 = 3) ∧ (3 ≤ k → c.scale * 100 = 6) ∧
        c.npix.1 * c.scale = x ∧ c.npix.2 * c.scale = y ∧
        c.crval.1 = x / 2 + 3 * j * c.scale ∧ c.crval.2 = y / 2 + 3 * j * c.scale ∧
        (Even j → c.pa = 0) ∧ (Odd j → c.pa = 30) := by
  obtain ⟨l, hl, hlen, hget⟩ := bandLoop_ok (x, y) m bands 0 (by omega)
  refine ⟨l, hl, hlen, ?_⟩
  intro k b hb j hj
  have hk : k < bands.length := (List.getElem?_eq_some_iff.1 hb).1
  have hs : (if 0 + k < 3 then (3 / 100 : ℚ) else 6 / 100) ≠ 0 := by split <;> norm_num
  refine ⟨_, by rw [hget k hk j hj, hb]; rfl, rfl, ?_, ?_, div_mul_cancel₀ _ hs, div_mul_cancel₀ _ hs, ?_, ?_, ?_, ?_⟩
  · intro h3; simp [callOf, h3]
  · intro h3; simp [callOf, Nat.not_lt.2 h3]
  · simp only [callOf]; push_cast; ring
  · simp only [callOf]; push_cast; ring
  · intro he; simp [callOf, Nat.even_iff.1 he]
  · intro ho; simp [callOf, Nat.odd_iff.1 ho]

/-- Concrete: the second exposure of the fourth band. -/
example : (match makeExposures [.number 0, .names ["A", "B", "C", "D"], .number 2, .pair 9 6] with
    | .ok l => l[7]? | .error _ => none) = some ⟨"D", 6 / 100, (9 / 2 + 18 / 100, 3 + 18 / 100), 30, (150, 100)⟩ := by decide +kernel

/-- C175, refuted (making the data). The call of the script (create_test_data.py:31) fails for every scene, since the number of exposures is taken
for the bands; with python 3 no header can be written; with more than six bands there is no pixel scale. With the scene alone there are four
exposures of 9 by 9 arcsec in each of six bands, as if these were given. -/
theorem C175_make_refuted {A : Type} (scene : Arg) (n version : Nat) (d : List A) :
    makeExposures [scene, .number n] = .error .typeError ∧ (3 ≤ version → itemsOf version d = .error .attribute) ∧
    (version = 2 → itemsOf version d = .ok d) ∧
    (∃ l, makeExposures [scene] = .ok l ∧ l.length = 24) ∧
    makeExposures [scene] = makeExposures [scene, .names ["A", "B", "C", "D", "F", "G"], .number 4, .pair 9 9] ∧
    (∀ (bands : List String) (m w : Nat), makeExposures [scene, .names bands, .number m, .number w] =
      makeExposures [scene, .names bands, .number m, .pair w w]) ∧
    ∀ (bands : List String) (m : Nat) (x y : ℚ), 6 < bands.length → 0 < m →
      makeExposures [scene, .names bands, .number m, .pair x y] = .error .index := by
  refine ⟨rfl, ?_, ?_, ?_, rfl, fun _ _ _ => rfl, ?_⟩
  · intro h
    rw [itemsOf, if_neg (by omega)]
  · rintro rfl
    rfl
  · obtain ⟨l, hl, hlen, -⟩ := bandLoop_ok (9, 9) 4 ["A", "B", "C", "D", "F", "G"] 0 (Or.inr (by simp))
    exact ⟨l, hl, hlen⟩
  · intro bands m x y hb hm
    exact bandLoop_index (x, y) m hm bands 0 (by omega) (by omega)

/-- The positions of the galaxies, `np.linspace(lo, hi, ngal + 2)[1:-1]` (create_test_data.py:48, test_simple.py:71). -/
def positions (ngal : Nat) (lo hi : K) : List K :=
  (((List.range (ngal + 2)).map fun (i : Nat) => lo + i * ((hi - lo) / ((ngal + 1 : Nat) : K))).drop 1).dropLast

/-- C175, scene. There are as many galaxies as asked for, evenly spaced strictly between the limits, at equal distances from each other
and the limits. -/
theorem C175_positions (ngal : Nat) (lo hi : K) (h : lo < hi) :
    (positions ngal lo hi).length = ngal ∧
    ∀ i < ngal, ∃ x, (positions ngal lo hi)[i]? = some x ∧ lo < x ∧ x < hi ∧ (x - lo) * (ngal + 1) = (i + 1) * (hi - lo) := by
  have hlen : (positions ngal lo hi).length = ngal := by simp [positions]
  refine ⟨hlen, ?_⟩
  intro i hi'
  have hg : (0 : K) < ((ngal + 1 : Nat) : K) := by exact_mod_cast Nat.succ_pos ngal
  have hd : 0 < (hi - lo) / ((ngal + 1 : Nat) : K) := div_pos (sub_pos.2 h) hg
  have hfull : (hi - lo) / ((ngal + 1 : Nat) : K) * ((ngal + 1 : Nat) : K) = hi - lo := div_mul_cancel₀ _ hg.ne'
  have hi2 : ((i + 1 : Nat) : K) < ((ngal + 1 : Nat) : K) := by exact_mod_cast Nat.succ_lt_succ hi'
  refine ⟨lo + ((i + 1 : Nat) : K) * ((hi - lo) / ((ngal + 1 : Nat) : K)), ?_, ?_, ?_, ?_⟩
  · unfold positions
    rw [List.getElem?_dropLast, List.getElem?_drop, List.getElem?_map, List.getElem?_range (by omega)]
    simp [hi', Nat.add_comm]
  · have : (0 : K) < ((i + 1 : Nat) : K) := by exact_mod_cast Nat.succ_pos i
    have := mul_pos this hd
    linarith
  · have := mul_lt_mul_of_pos_right hi2 hd
    rw [mul_comm ((ngal + 1 : Nat) : K), hfull] at this
    linarith
  · have : ((ngal : K) + 1) = ((ngal + 1 : Nat) : K) := by push_cast; ring
    rw [this]
    have e2 : ((i : K) + 1) = ((i + 1 : Nat) : K) := by push_cast; ring
    rw [e2]
    linear_combination ((i + 1 : Nat) : K) * hfull

example : positions 4 0 (9 : ℚ) = [9 / 5, 18 / 5, 27 / 5, 36 / 5] := by decide +kernel

/-- `get_psf` (create_test_data.py:130-139, test_simple.py:172-181): amplitude and variance of each gaussian. -/
def psf (npsf : Nat) : List (K × K) := (List.range npsf).map fun (k : Nat) => (1 / (npsf : K), 1 / 2 * ((k : K) + 1))

/-- C175, PSF. The PSF has unit flux and variance `(n + 1) / 4`. -/
theorem C175_psf (n : Nat) (hn : 0 < n) :
    ((psf (K := K) n).map (·.1)).sum = 1 ∧ ((psf (K := K) n).map fun g => g.1 * g.2).sum * 4 = n + 1 := by
  have hnK : (n : K) ≠ 0 := by exact_mod_cast hn.ne'
  have s : ∀ (m : Nat) (a : K), ((List.range m).map fun (k : Nat) => a * (1 / 2 * ((k : K) + 1))).sum * 4 = a * (m * (m + 1)) := by
    intro m a
    induction m with
    | zero => simp
    | succ m ih =>
      rw [List.range_succ, List.map_append, List.sum_append, add_mul, ih]
      simp only [List.map_cons, List.map_nil, List.sum_cons, List.sum_nil]
      push_cast
      ring
  constructor
  · simp [psf, Function.comp_def, hnK]
  · rw [psf, List.map_map]
    show ((List.range n).map fun (k : Nat) => 1 / (n : K) * (1 / 2 * ((k : K) + 1))).sum * 4 = _
    rw [s]
    field_simp

end Forcepho.Slow.Fixture
