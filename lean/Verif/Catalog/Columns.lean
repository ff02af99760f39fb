import Verif.Float.Sums

/-! # C174: identifiers and positions in the columns of catalogs
(forcepho/superscene.py `sourcecat_dtype`, forcepho/sources.py `cat_dtype`, forcepho/postprocess.py, forcepho/utils/chain.py) -/

set_option autoImplicit false

namespace Forcepho.Catalog.Columns

open Forcepho.Float

/-- Entries of a catalog: integers (of 64 bits in the files of users) or floats. -/
inductive Num
  | int (n : ℤ) | real (x : ℝ)

/-- Types of columns. -/
inductive Col
  | i4 | f4 | f8

/-- The integers of 32 bits, two's complement. -/
def wrap (n : ℤ) : ℤ := (n + 2 ^ 31) % 2 ^ 32 - 2 ^ 31

/-- Towards zero. -/
noncomputable def trunc (x : ℝ) : ℤ := if 0 ≤ x then ⌊x⌋ else ⌈x⌉

/-- The assignment of an entry to a column by numpy. Integers wrap around, floats are cut; a float outside the range of the integers has no
specified value. Overflow of float32 is not modelled. -/
noncomputable def store : Col → Num → Option Num
  | .i4, .int n => some (.int (wrap n))
  | .i4, .real x => if -2 ^ 31 ≤ trunc x ∧ trunc x < 2 ^ 31 then some (.int (trunc x)) else none
  | .f4, .int n => some (.real (fl 24 n))
  | .f4, .real x => some (.real (fl 24 x))
  | .f8, .int n => some (.real (fl 53 n))
  | .f8, .real x => some (.real (fl 53 x))

/-- An entry copied from column to column. -/
noncomputable def through : List Col → Num → Option Num
  | [], v => some v
  | c :: cs, v =>
    match store c v with
    | none => none
    | some w => through cs w

/-- The columns that an `id` of the catalog of the user passes: the catalog of a run (`sourcecat_dtype`, superscene.py:755-756, assigned at
788). -/
def runCols : List Col := [.i4]

/-- ... then the catalog of all chains (postprocess.py:276-286). -/
def chainCols : List Col := [.i4, .i4]

/-- ... or the summary of a patch (`summary_dtype`, postprocess.py:155-167). -/
def summaryCols : List Col := [.i4, .f8]

/-- An `id`, `ra` or `dec` of a source of a scene passes the catalog of the scene (`cat_dtype`, sources.py:434-440, 112-113 of superscene.py
hands out the type of the run). -/
def sceneCols : List Col := [.f4]

/-- Right ascensions and declinations of the user pass the catalog of the run (`source_type`, superscene.py:760-761), those of a chain its
column (chain.py:46-47). -/
def runPosition : List Col := [.f8]

lemma wrap_id (n : ℤ) (h1 : -2 ^ 31 ≤ n) (h2 : n < 2 ^ 31) : wrap n = n := by
  unfold wrap
  rw [Int.emod_eq_of_lt (by omega) (by omega)]
  omega

lemma fl53_int (n : ℤ) (h1 : -2 ^ 31 ≤ n) (h2 : n < 2 ^ 31) : fl 53 (n : ℝ) = n := by
  have := fl_int 53 (by norm_num) n 0 (by rw [abs_le]; constructor <;> omega)
  simpa using this

/-- C174, identifiers. Integers of 32 bits come out of every catalog of a run as they went in; in the summary as the same number. -/
theorem C174_ids_partial (n : ℤ) (h1 : -2 ^ 31 ≤ n) (h2 : n < 2 ^ 31) :
    through runCols (.int n) = some (.int n) ∧ through chainCols (.int n) = some (.int n) ∧
    through summaryCols (.int n) = some (.real n) := by
  refine ⟨?_, ?_, ?_⟩
  · simp only [runCols, through, store, wrap_id n h1 h2]
  · simp only [chainCols, through, store, wrap_id n h1 h2]
  · simp only [summaryCols, through, store, wrap_id n h1 h2, fl53_int n h1 h2]

example : (-2 ^ 31 : ℤ) ≤ 2147483647 ∧ (2147483647 : ℤ) < 2 ^ 31 := by norm_num

/-- C174, the same (whole floats). Identifiers given as floats without fraction are those integers. -/
theorem C174_float_ids_partial (n : ℤ) (h1 : -2 ^ 31 ≤ n) (h2 : n < 2 ^ 31) :
    through runCols (.real n) = some (.int n) ∧ through chainCols (.real n) = some (.int n) := by
  have ht : trunc (n : ℝ) = n := by
    unfold trunc
    split
    · exact Int.floor_intCast n
    · exact Int.ceil_intCast n
  constructor
  · simp only [runCols, through, store, ht, h1, h2, and_self, if_true]
  · simp only [chainCols, through, store, ht, h1, h2, and_self, if_true, wrap_id n h1 h2]

/-- C174, refuted (identifiers). Two integers get the same identifier, in the run and in the catalog of chains, exactly if they differ by a
multiple of `2 ^ 32`; two floats may get the same without that. Nothing is reported. -/
theorem C174_ids_refuted :
    (∀ m n : ℤ, (through runCols (.int m) = through runCols (.int n) ↔ ∃ k : ℤ, m = n + k * 2 ^ 32) ∧
      (through chainCols (.int m) = through chainCols (.int n) ↔ ∃ k : ℤ, m = n + k * 2 ^ 32)) ∧
    through runCols (.int (2 ^ 32 + 1)) = some (.int 1) ∧ through runCols (.int (2 ^ 31)) = some (.int (-2 ^ 31)) ∧
    through runCols (.real (5 / 4)) = some (.int 1) ∧ through runCols (.real (7 / 4)) = some (.int 1) ∧
    through runCols (.real (-7 / 4)) = some (.int (-1)) := by
  have key : ∀ m n : ℤ, wrap m = wrap n ↔ ∃ k : ℤ, m = n + k * 2 ^ 32 := by
    intro m n
    unfold wrap
    constructor
    · intro h
      exact ⟨(m + 2 ^ 31) / 2 ^ 32 - (n + 2 ^ 31) / 2 ^ 32, by omega⟩
    · rintro ⟨k, rfl⟩
      have : n + k * 2 ^ 32 + 2 ^ 31 = (n + 2 ^ 31) + k * 2 ^ 32 := by ring
      rw [this, Int.add_mul_emod_self_right]
  have hww : ∀ m : ℤ, wrap (wrap m) = wrap m := by
    intro m
    apply wrap_id <;> (unfold wrap; omega)
  refine ⟨fun m n => ⟨?_, ?_⟩, ?_, ?_, ?_, ?_, ?_⟩
  · simp only [runCols, through, store, Option.some.injEq, Num.int.injEq]
    exact key m n
  · simp only [chainCols, through, store, Option.some.injEq, Num.int.injEq, hww]
    exact key m n
  · simp [runCols, through, store, wrap]
  · simp [runCols, through, store, wrap]
  · have h : trunc (5 / 4 : ℝ) = 1 := by
      rw [trunc, if_pos (by norm_num), Int.floor_eq_iff]; norm_num
    simp [runCols, through, store, h]
  · have h : trunc (7 / 4 : ℝ) = 1 := by
      rw [trunc, if_pos (by norm_num), Int.floor_eq_iff]; norm_num
    simp [runCols, through, store, h]
  · have h : trunc (-7 / 4 : ℝ) = -1 := by
      rw [trunc, if_neg (by norm_num), Int.ceil_eq_iff]; norm_num
    simp [runCols, through, store, h]

/-- C174, catalogs of scenes. Identifiers up to `2 ^ 24` are exact, positions right to 0.08 arcsec, fluxes and shapes to a part in
`2 ^ 24`. -/
theorem C174_scene_partial :
    (∀ n : ℤ, |n| ≤ 2 ^ 24 → through sceneCols (.int n) = some (.real n)) ∧
    ∀ x : ℝ, ∃ y, through sceneCols (.real x) = some (.real y) ∧ |y - x| ≤ |x| / 2 ^ 24 ∧
      (|x| ≤ 360 → |y - x| * 3600 ≤ 8 / 100) := by
  constructor
  · intro n hn
    have := fl_int 24 (by norm_num) n 0 hn
    simp only [sceneCols, through, store]
    simp only [zpow_zero, mul_one] at this
    rw [this]
  · intro x
    have h := fl_err 24 x
    refine ⟨fl 24 x, rfl, h, fun hx => ?_⟩
    have : |x| / 2 ^ 24 ≤ 360 / 2 ^ 24 := by gcongr
    have h2 := h.trans this
    norm_num at h2 ⊢
    linarith

lemma fl_degree : fl 24 (256 + 1 / 2 ^ 16) = 256 := by
  have hlog : Int.log 2 |(256 + 1 / 2 ^ 16 : ℝ)| = 8 := by
    rw [abs_of_pos (by norm_num)]
    apply le_antisymm
    · have : (256 + 1 / 2 ^ 16 : ℝ) < ((2 : Nat) : ℝ) ^ (9 : ℤ) := by norm_num
      have := (Int.lt_zpow_iff_log_lt (b := 2) (by norm_num) (by norm_num)).mp this
      omega
    · exact (Int.zpow_le_iff_le_log (b := 2) (by norm_num) (by norm_num)).mp (by norm_num)
  have hulp : ulp 24 (256 + 1 / 2 ^ 16) = 1 / 2 ^ 15 := by
    rw [ulp, hlog]
    norm_num
  rw [fl, if_neg (by norm_num), hulp]
  have e : (256 + 1 / 2 ^ 16 : ℝ) / (1 / 2 ^ 15) = ((2 ^ 23 : ℤ) : ℝ) + 1 / 2 := by norm_num
  have hfl : ⌊((2 ^ 23 : ℤ) : ℝ) + 1 / 2⌋ = 2 ^ 23 := by
    rw [Int.floor_eq_iff]
    norm_num
  have hfr : Int.fract (((2 ^ 23 : ℤ) : ℝ) + 1 / 2) = 1 / 2 := by
    rw [Int.fract, hfl]
    norm_num
  rw [e, roundEven, hfr, hfl, if_neg (by norm_num), if_neg (by norm_num), if_pos (by decide)]
  norm_num

/-- C174, refuted (catalogs of scenes). Two sources may get the same identifier, and a source may be moved by 0.05 arcsec, more than a pixel
of 0.03 arcsec. -/
theorem C174_scene_refuted :
    through sceneCols (.int (2 ^ 24 + 1)) = through sceneCols (.int (2 ^ 24)) ∧
    ∃ x y : ℝ, 0 ≤ x ∧ x < 360 ∧ through sceneCols (.real x) = some (.real y) ∧ 5 / 100 < |y - x| * 3600 := by
  constructor
  · have h1 := fl_full
    have h2 : fl 24 ((2 ^ 24 : ℤ) : ℝ) = 2 ^ 24 := by
      have := fl_int 24 (by norm_num) (2 ^ 24) 0 (by norm_num)
      rw [zpow_zero, mul_one] at this
      rw [this]
      norm_num
    have h3 : (((2 ^ 24 + 1 : ℤ)) : ℝ) = 2 ^ 24 + 1 := by norm_num
    simp only [sceneCols, through, store, h2, h3, h1]
  · refine ⟨256 + 1 / 2 ^ 16, 256, by norm_num, by norm_num, ?_, ?_⟩
    · simp only [sceneCols, through, store, fl_degree]
    · have : (256 - (256 + 1 / 2 ^ 16) : ℝ) = -(1 / 2 ^ 16) := by ring
      rw [this, abs_neg, abs_of_pos (by norm_num)]
      norm_num

/-- C174, positions. In the catalog of a run and in chains a position is right to a billionth of an arcsec. -/
theorem C174_position (x : ℝ) (hx : |x| ≤ 360) :
    ∃ y, through runPosition (.real x) = some (.real y) ∧ |y - x| * 3600 ≤ 1 / 10 ^ 9 := by
  have h := fl_err 53 x
  refine ⟨fl 53 x, rfl, ?_⟩
  have : |x| / 2 ^ 53 ≤ 360 / 2 ^ 53 := by gcongr
  have h2 := h.trans this
  norm_num at h2 ⊢
  linarith

end Forcepho.Catalog.Columns
